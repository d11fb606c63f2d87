# Formal model of RosettaCommons/binder in Lean 4

Source modelled: `/repo/source/*.cpp` at the pinned commit. Project: `/verif/lean` (Lean 4.33.0, core library; Mathlib modules only where imported explicitly).

## 1. Shape of the model

* `Verif/Basic/*`   strings as `List Char` (`Str`), the `while`-loop combinator, small list facts.
* `Verif/Model/*`   the program, function by function; every definition cites file and lines.
* `Verif/Spec/*`    small independent specifications, written without reference to the model.
* `Verif/Lemmas/*`  helper lemmas (free to change).
* `Verif/Props/*`   the property theorems, each with a non-vacuity `example`, and nothing else.

Conventions

* `Str := List Char`; one `Char` is one byte of a `std::string`. `std::isalpha` etc. are the "C" locale versions. `std::set<std::string>` order is lexicographic order of characters.
* `size_t`/`int`/`uint` are unbounded `Nat`, except where wrap-around is part of the claim (the loop counter of `Context::generate`).
* A `while`/`for` loop whose termination is part of a claim is a step function run by `Loop.run` with fuel; `Returns` means "some amount of fuel suffices", `Diverges` means "no amount of fuel suffices". Other loops are structural recursion or `List.foldl`.
* A C++ exception is `Except.error`; `std::exit(1)` and undefined behaviour are distinct outcomes.
* clang is an input: declarations are Lean records that carry the strings and flags that clang returns (`getQualifiedNameAsString`, `getAccess`, ...). Pointers to declarations are identifiers. Nothing is assumed about these strings unless a theorem says so.
* Static caches are modelled separately (C55) and shown transparent; elsewhere functions are the uncached `*_raw` versions.
* The simplifier of `std::` names is a parameter of the other models, so their theorems hold for every function in its place. The function itself is modelled in `Model/Simplify.lean` (C77).

## 2. Properties: what is modelled and how it is proved

| id | model | proof |
|----|-------|-------|
| C01 C02 | both namespace loops as folds over the entry lists | fold invariant "longest matching entry so far", then the characterisation by longest prefix |
| C03 | `Config.read` line by line, all queries | queries proved to be functions of membership only; `read` appends; permutation/duplication lemma |
| C04 | same | read twice = read once up to membership; last-wins settings by fold lemma |
| C05 | `Config.read` as a fold over `getline` lines in `Except` | independent grammar `parseLine`, and `read = apply ∘ parse` |
| C06 | same | per-line equality |
| C07 | space removal on both sides | equality after removing spaces; enum and field lookups are exact: negation with witness, `_partial` |
| C08 | raw string prefix | negation with witness; `_partial`: entries do cover nested namespaces |
| C09 | `is_python_builtin` tables | decision logic |
| C10 | `is_module_local_requested` | decision logic |
| C11 | `generate_include_directives` | sortedness + membership characterisation |
| C12 | index loop with `find`/`replace` at position | loop = structural left-to-right substitution, for all strings; divergence for empty pattern |
| C13 | `split` | round trip for one-character separators; multi-character: negation with witness |
| C14 | `indent` | un-indent round trip |
| C15 | `trim` | uniqueness characterisation |
| C16 | `base_namespace`, `last_namespace` | round trip, strict decrease |
| C17 | `fix_boolean_types` index loop | equal to a left-to-right scanner; `_Bool_t` is rewritten: negation with witness, `_partial` |
| C18 | the three `replace` calls | decode (a C++ literal reader) ∘ encode = id |
| C19 | `mangle_type_name` | character invariants; injectivity and identifier claims negated by witness |
| C20 | file system as a finite map | frame + content + no-write-if-equal |
| C21 | `file_name_prefix_for_binder` | character invariant through `replace` |
| C22 | `file_names` counter map | injectivity for flat mode; negation with witness for the other mode, `_partial` under an explicit hypothesis |
| C23 | `Context::add` | invariant by induction over additions |
| C24-C27 | `Context::bind` over an abstract declaration graph | fixpoint loop = least closure; termination measure; order independence as corollary |
| C28-C30 | `Context::sort_binders` with `rotate` | permutation invariant; topological postcondition; termination by lexicographic measure on acyclic graphs; divergence on cycles |
| C31-C34 | the writing loop of `Context::generate` with explicit index and wrap-around decrement | invariant over the list of files written; refinement to `chunks` |
| C35 | `create_all_nested_namespaces`, generated `sub_modules` loop and `M` | lexicographic order puts parents first |
| C36 | composition of sort + generate + registration machine | corollary; nested classes: negation with witness |
| C37 C38 | lists collected by `generate` | corollary of the generate invariant |
| C39 | trace counter | decimal rendering is injective |
| C40 | the operator table | `decide` over the whole finite table, lifted to all names and arities |
| C41 C42 C43 | `bind_function` (both overloads) | list characterisation |
| C44 C45 | request/skip predicates | decision logic |
| C46 | both `template_specialization`s | equality with `intercalate`; class version negated by witness for all-empty arguments |
| C47 | `is_bindable` on an inductive type tree | structural induction |
| C48-C52 | class binder member selection and trampolines | decision logic, list invariants, negation witnesses |
| C53 | `bind_enum` | list characterisation; `enum struct` negated by witness |
| C54 | `IncludeSet::add_decl` and the three mutually recursive traversals | termination measure, coverage |
| C55 | memo table | invariant by induction over queries |
| C56 | `standard_name_raw` | negations with witnesses; `C56_normal_partial`: no replacement makes a `_Bool`, the rest is stability of the short names (C77) |
| C57 | `request_bindings(QualType)` | structural induction |
| C58 | `begins_with`, `ends_with` | equivalence with concatenation |
| C59 | exception specification in `bind_member_functions_for_call_back` | case analysis over clang's codes; negation with witnesses |
| C60 | constructor statements | list characterisation; negation with witness |
| C61 C62 C65 | head of the class block (`class_` statement, holder, bases, fields) | decomposition of the text; negation with witnesses |
| C63 | `bind_repr` and the insertion operators collected by the context | characterisation of the selection; negation with witness |
| C64 | nested class loop | order/multiplicity of the nested blocks |
| C66 C67 | `relevant_include`, the include tables, the walks of `add_relevant_includes` | text characterisation; coverage through `C54_exact`; negation with witnesses |
| C68 | the body of an override | equality with an independent rendering of "look up, call, forward" |
| C69 | `main.cpp`: the visitor, the objects made from declarations, `Context::generate` as a whole (`Model/Run.lean`) | composition of C20, C22, C24, C28, C31 and the text theorems; `Reached` is the independent specification |
| C70 C71 | the same | composition of C25, C30, C32; acyclicity of dependencies from the rank of bases; negations with witnesses |
| C72 C73 C74 | the same, with the files as state; `ClangTool::run` as a fold over units | frame reasoning on the files, replay of the run on its own result; negations with witnesses |
| C75 | the same, with the order of class statements | C29 and C61 lifted to declarations; negation with a witness |
| C76 | the same, with the include lines; reasons for a line in `Spec/Wants.lean` | `C76_headers`: C11, C31 and C54 composed; `C76_only`: the other direction, each line has a reason, by induction over the loops that fill a file |
| C77 | `simplify_std_class_name` with its twelve regular expressions; a matcher for fixed text, `(.*)`, `\n` and ` *` | matcher shown leftmost-longest; every replacement shortens the name; `Dropped` is the independent specification; containers nested to any depth (`Spec/SimplifyNested.lean`): one pass shortens one level, because the number of `<` before the first `,` or `>` tells the levels apart; element types with template arguments (`Spec/SimplifyElements.lean`): each default argument occurs at one place only, so all matches lead to the same text; negations with witnesses |
| C78 | the whole run, with every text it writes; `lex` of `Spec/Lexical.lean` reads C++ text | `lex` leaves its state unchanged over every text put into the files (`Neutral`), by a simplification procedure for fixed text; a witness for the negation |
| C79 | the whole run, for two orders of the same declarations (`Spec/RunOrder.lean`) | reachability (`Reached`) carried over from one order to the other, composed with C69 |
| C80 | the constructor of `BinderVisitor` and `Config::read` | induction on the options; a witness that the hypothesis on spaces is needed |
| C81 | what pybind11 and Python do with the generated calls (`Spec/Import.lean`): modules, types with their search order (C3), names; the calls of a binding and their text (`Block`) | text: structural induction on the bindings; success: an invariant over the calls, composed with C35, C69, C75; the converse (`C81_needed`) by induction on the calls |
| C82 | the names made by `stl_binders.hpp` (`Model/StlBinders.lean`) and the statement of `bind_with` | `mangle_type_name` and `fix_boolean_types` cut at the boundaries of key and value; witnesses for the negations |
| C83 | two runs of the model of a whole run (`Model/Run.lean`) that differ in the options and in the files before | the loop that divides the code keeps: what has been emitted, without traces, followed by what remains, is the list for all declarations; binding and sorting do not read the options |
| C84 | the machine of C81 (`Spec/Import.lean`) run on the calls of a whole run | the machine keeps a list of names and search orders; C3 merging keeps exactly the members of the merged lists; induction over the calls and over inheritance; witness for the negation |
| C85 | the text of all bindings and of the trampolines, the include lines, the whole run, with the three options as part of the environment (`Spec/Comments.lean`) | simulation of two runs whose objects differ only in text and include lines (`Lemmas/RunSim.lean`, `Lemmas/CommentRun.lean`), line-by-line comparison of the texts without comments (`Lemmas/CommentText.lean`) |
| C86 | all queries of the configuration and the generator, the requests of the generator, the whole run and the import (`Spec/Wishes.lean`) | every query is monotone in the requests (`Lemmas/Wishes.lean`), so are the items of a class and the types requested (`Lemmas/WishRun.lean`); induction on `Reached`; then C69 and C84 for both runs; induction on the lines for the files (`Lemmas/WishFile.lean`) |
| C87 | the queries with their exceptions, the whole run, the file system (`Spec/Contradiction.lean`) | a query throws exactly if a namespace it depends on is torn (induction on the rank of template arguments, `Lemmas/Contradiction.lean`); no generated name is a directory of another one, so room is preserved by every write (`Lemmas/Room.lean`); with C70 and C71 only success is left |
| C88 | the whole run and the import (`Spec/Extended.lean`) | induction on `Reached` as for C79, with inclusion instead of equality of the declarations; the only other influence, the insertion operators, can only add `__str__` (`more_opsOf`); then C69 and C84 for both runs |
| C89 | `generate` and `update_source_file` as a list of operations on files and buffered output streams, executed one by one (`Model/Steps.lean`) | invariant of a process between two steps: files not begun are old, files begun hold what has been handed over, the rest of the text is in the stream or still to be put (`PInv`, `Lemmas/Steps.lean`); the plan of a run does not depend on the files, and its result does not depend on the content of files it writes (`RunDone.from`); termination by a weight that each step lowers; runs that fail by an invariant of processes that are going to fail (`Doomed`, `Lemmas/StepsFail.lean`) |
| C90 | several processes of `Model/Steps.lean` that share the files (`Spec/Steps.lean`) | the invariant of C89 for every process, preserved by steps of others because they write other files and only add directories (`PInv.frame`); names of `--flat` runs by C21 |
| C91 | pybind11's overload resolution (`Spec/Call.lean`): names, positions, two passes; what a pointer and a lambda call (`Does`) | soundness and completeness of the matching of keywords by induction on the names, composed with the structure of the generated `def` statements of C46, C52, C60 |
| C92 | trees of comments with lines (`Model/Comment.lean`), `get_text` with its line comparison | mutual induction on the tree with the invariant that the last piece is on the current line or a line end has been written since; composed with C18 and the def/class_/enum_ statements |
| C93 | whole run + import (C81, C84) + overload resolution (C91); the functions of a scope and name are a list computed from the generated sources (`bindingsIn`) | `C93_functions`, `C93_methods` say which functions these are; `C93_call_partial` shows that the import makes exactly their `def` statements, in that order, under the name, and what a call does; `C93_inherited` for subclasses; two example programs are imported and meet all hypotheses |
| C94 | whole run + import (C81, C84) + overload resolution (C91) over all constructor statements of a class, with pybind11's rules for which C++ object `pybind11::init` makes | `C94_construct_partial`: the calls for `__init__` of the imported class are exactly the statements of its constructors; soundness, completeness and preference of the choice, and the class of the object made. Copies are the missing part: `C94_copy_false` shows that they are always of the callback structure |
| C95 | callback structure (C49-C51, C68) with the meaning of its functions: lookup of the Python method, values bound to parameter names, and what happens otherwise (`Spec/Virtual.lean`) | `C95_override_partial`: completeness of the traversal for every virtual function, not only pure ones; a declarator determines the name and the number of parameters, hence the Python name; values reach Python and C++ in order. Missing: `C95_const_false`, `C95_private_false` |
| C96 | import of the generated module (C81) with Python's method resolution order and attribute lookup; C++ member lookup by dominance (`Spec/Lookup.lean`) | `C96_order`: induction over the statements of the import, with the C3 merge shown to keep every order it is given; `C96_hides`; `C96_lookup_partial`. Missing: `C96_unbound_base_false` |
| C97 | fields behind the properties of the imported module, in the order of the statements (`Spec/Fields.lean`); import (C81), lookup (C96) | `C97_slots`: correspondence between statements, calls and fields, by induction over nested classes; `C97_field_partial` from it, from `C48_fields`, `C62_readonly_partial` and `C96_lookup_partial`. Missing: `C97_hidden_false` |
| C98 | Names bound by the calls of pybind11 in an import (Spec/Import.lean); `Word`, keywords of Python and conditions on C++ names in Spec/PyNames.lean | `C98_words_partial`: by C84 every name comes from a bound declaration or a namespace; names of classes stay spellable through `standard_name`, `fix_boolean_types`, `simplify_std_class_name` and `mangle_type_name` (Lemmas/Spellable.lean); names of operators by the table. `C98_words_false`: `int from` and `Signal<void (int)>` |
| C99 | What names stand for after the calls of pybind11 in an import, and paths of dotted names (Spec/Dotted.lean) over the calls of Spec/Import.lean | `C99_modules`: the table of the root module by C38; `C99_dotted_partial`: by induction over the steps of the path and over the calls of the import (a name, once given, is given to something else only by calls that `Op.takes` describes); `C99_kinds`: the same names are known to the interpreter of C81. `C99_taken_false`: `struct S { enum kind { a } kind; };` |
| C100 | The rules of Python for expressions with operators (Spec/Operators.lean) over the interpreter of Spec/Import.lean, and the table of function.cpp | `C100_operators_partial`: the method found is that of C96, its name is that of C40, no reflected method exists by C84; `C100_functions`: the functions behind the name by C93, C48 and C40; `C100_without`: by C84 and C96. `C100_free_false`, `C100_swapped_false`: a program with operators in and out of classes |
| C101 | Objects, owners and Python instances with the rules of pybind11 for results (Spec/Lifetime.lean); the policies in the generated `def` statements | invariants of all histories (Lemmas/Lifetime.lean) and, for the other direction, short histories; `C101_both_false`, `C101_default_false`: such histories for a run with the default configuration |
| C102 | Overload resolution for calls with variables as arguments (Spec/Overload.lean); the lambdas in the `def` statements | `C102_selected_partial`: for every set of functions, the call in the lambda reaches the function exactly if the first parameters tell it apart, by comparing the declared type of each lambda parameter with each parameter type; `C102_constructors_partial`: the same for constructors; `C102_ambiguous_false`, `C102_copy_false`: programs |
| C103 | As C102, for the functions of callback structures | `C103_fallback_partial`: the declared parameter types are those of the method, so the argument fits its own parameter and no other one better; `C103_ambiguous_false`, `C103_copy_false`: programs; `C103_class_name_partial`, `C103_class_name_false`: C++ lookup of the class name before `::` |
| C104 | C++'s choice of an overloaded function by the type of a cast (Spec/Address.lean), with the qualifiers that clang knows and binder does not read as an input; the addresses in the `def` statements | `C104_address_partial`: the type in the cast is the type of the function without qualifiers, and C++ does not allow two functions of one type; `C104_result_partial`: structural induction on the type, with C47; negations with witnesses |
| C105 | the items of a class (C48) and the statements for data members; bit-fields are an input, since binder does not look at them | `C105_address_partial`: C48 and the text of the statement; references are found through typedefs and `const` by induction on the type; negations with witnesses |
| C106 | the declarations in callback structures (C68) and C++'s rule for overriding (Spec/Address.lean), with the qualifiers that binder does not read as an input | `C106_overrides_partial`: text of the declarations, types by structural induction with C47; negations with witnesses |
| C107 | whole runs (C69) with the lists of names written again from the documentation (Spec/Builtin.lean) | `C107_never_bound` from C69, induction over nested classes; `C107_objects_partial`; negation with a run as witness |
| C108 | the three tables of the include search, against lists written from the C++ standard and from the include lines of libstdc++ 13, glibc and libc++ (Spec/Headers.lean) | `C108_names_partial`, `C108_internal_partial`: the tables are compared entry by entry in the kernel, the search is followed for all names; negations with witnesses |
| C109 | overload resolution for variables of classes ([over.ics.rank], with base classes, references, `const`, pointers and defaults; Spec/Choice.lean) and pybind11's dispatch in the order of the `def` statements | `C109_choice_partial`: a condition on the order under which both choices agree, proved for all overload sets, hierarchies and calls; `C109_order_false`: a general condition under which they differ; two witnesses with generated text |
| C110 | whole runs (C69) with the three tests on names | `C110_named_partial`: for every function and class of every run, by following the tests; a run of the whole model as the witness for enumerations and template arguments |
| C111 | the holder in the `class_` statement of the complete text of a class, and the two rules of pybind11 about holders (`Spec/Holder.lean`) | `C111_import_partial`, `C111_pointer_partial`: exact conditions, by comparing the texts of the holders; `C111_shared`: induction along the bases; `C111_shipped_partial`: the classes that `stl_binders.hpp` makes (`shippedType`, `shippedHolder`); three runs of the whole model as witnesses |
| C112 | `getQualifiedNameAsStringLLVM5Fix` over lists of contexts; which names C++ looks up (`Spec/EnumNames.lean`) | `C112_old_names_partial` by induction over the contexts, `C112_values_partial` for the text that is written, through C53; concrete contexts as witnesses |
| C113 | the body of the overriding functions with `custom_function_info`, the configuration file, and the call a custom trampoline expects (`Spec/CustomTrampoline.lean`) | `C113_custom_partial`, `C113_file_partial` (through C05) and `C113_others`: by computing the name the configuration is asked for; a hierarchy of two classes as witness |
| C114 | the call guards of the `def` statements and the bodies of the callback structures; threads as trees of calls with the state of the lock (`Spec/Lock.lean`) | `C114_python`: induction over the calls, with the text of the bodies from C68; `C114_released_partial`, `C114_kept`: induction, with the guards from C43; two witnesses |
| C115 | the `def` statement of a function (C41) and a reader of C++ string literals that follow each other (`Spec/Literal.lean`) | `C115_registered_partial`: the reader goes through the parts of the statement, by induction on each; a witness for two functions with one name |
| C116 | the include lines of every generated source of a run, and the table of `is_python_builtin`; the headers of pybind11 with conversions are a list (`Spec/Converts.lean`) | `C116_included_partial`: the text of each source of a run is cut at the lines of `module_header`; `C116_left_partial`: comparison of the two tables; a run as witness |
| C117 | the classes registered by a run, and the lines of `module_header` in every source | `C117_once_partial`: C107 for the classes, and `moduleHeader` as a list of lines, which gives exactly the headers it includes; `C117_reason_partial` adds the lines before it, with C76; two runs as witnesses |
| C118 | the loop over `name_map` and the text of the lambda | the two ways to write a type are in `Spec/TrailingType.lean`; `C118_result_partial`: the loop takes the word away, exactly once, by cases over the table and a name of any form; a function that returns a union as witness |
| C119 | `standard_name_raw` with the tables, `simplify_std_class_name`, `fix_boolean_types` | which parts of a name may be written how is in `Spec/Renamed.lean`: inline namespaces, names that the standard declares, default arguments; `C119_renamed_partial`, `C119_whole_partial`: each row of the table is a chain of such steps (of whole names), and what one replacement keeps all keep; no replacement completes an excluded word; witnesses for `nullptr_t` and for a namespace whose name ends in `std` |
| C120 | the calls of `def` in `vector_binder`, and how pybind11 chooses among definitions of one name | `Spec/VectorMembers.lean` has the C++ standard on the member functions, as a relation, and what a Python programmer expects; `C120_history`: induction over the history, with the invariant that every vector has room for its elements; `C120_callable` |
| C121 | `fileLine`, `commentFor`, `lineNumber` and `signatureComment` in the texts of all binders | `Spec/Origin.lean` has the comments; `C121_origin`: the text of each binding begins with it, also after the indentation of the class; `C121_nested`: by induction on the nesting, since indenting keeps the ends of lines; `C121_annotation_partial`, `C121_members_partial`, `C121_annotation_false` |
| C122 | `addOnItems`, `bindWithText`, `bindClassTextF` | the lines of members survive the indentation of every enclosing class (`class_has_line`, induction on the nesting); `C122_called` is for whole runs |

## 3. Trusted base

* Lean 4.33.0 kernel. Axioms: at most `propext`, `Classical.choice`, `Quot.sound` (per-theorem list: `AXIOMS.txt`, see section 6). No axioms are added, no `sorry`, `native_decide`, `bv_decide`.
* The reading of the C++ source that the comments of the model record. Nothing was compiled or run.

## 4. Disagreements between the code and the claimed properties

Each is a theorem `..._false` with a concrete witness. Found by reading and proving; nothing was run.

Configuration
* C04: reading a file twice writes the text of `+include` twice (`C04_includes_code_false`).
* C07: `+enum`/`-enum`/`-field` entries lose their spaces, the names they are compared with do not; an entry with a space never matches (`C07_names_up_to_spaces_false`).
* C08: namespace entries are raw string prefixes; `foo` governs `foobar` (`C08_exactly_nested_false`).
* C44: `+function std::f` is compared with the raw name `std::__1::f`, `-function std::f` with the normalised one (`C44_bind_inline_namespace_false`); `-class A` does not reach a pointer behind a typedef (`C44_typedef_pointer_false`).

Text helpers
* C13: `split` with a separator of two characters (`C13_split_multichar_false`; the program uses one character only).
* C17: `_Bool_t` becomes `bool_t` (`C17_whole_identifier_false`).
* C19: `A<B,C>` and `A<B<C>>` get the same Python name; `A<-1>` gets a name that is no identifier (`C19_injective_false`, `C19_identifier_false`).
* C46: `std::tuple<>` is printed as `std::tuple>` (`C46_class_false`).
* C56: every normalisation of a name with `nullptr_t` adds a `std::`; `std::nullptr_t` itself becomes `std::std::nullptr_t` (`C56_false`, `C56_nullptr_false`, `C56_program_false`). Default arguments with `_Bool` are recognised only when the name is normalised a second time: `std::vector<_Bool,std::allocator<bool>>` (`C56_bool_false`).
* C77: `std::multiset<int,std::less<>>` becomes `multiset<int *>`, a multiset of pointers, and so does a multiset of lists with nothing but default arguments (`C77_multiset_false`); brackets can be lost (`C77_balanced_false`); classes outside `std` whose names end in `set`, `map`, `list` lose arguments that need not be their defaults (`C77_other_class_false`). The row for `std::wstringbuf` asks for `std::wchar_traits` and is never used, so that class keeps its long name (`C77_wide_false`).
* C78: template arguments are put into string literals as they are printed. For `A<'"'>` (clang 13 and later print it so) the docstring and the Python name end in the middle (`C78_char_argument_false`).
* C78: the simplification of names of the standard library works on text: `(.*)` with a back reference can begin and end within nested template arguments. For a `std::list` of a `std::function` whose parameter type mentions an allocator of another `std::function`, the second pass removes a part with an unpaired parenthesis and the written class name does not parse (`C78_simplified_false`).

Files and modules
* C22: header-based file names collide in three ways (`C22_split_collides_false`, `C22_slash_collides_false`, `C22_root_collides_false`).
* C33: `+add_on_binder_for_namespace` is never called if `+binder_for_namespace` names the same namespace (`C33_both_false`).
* C36: a base that is a Python builtin, or in a namespace with its own binder, is named but never registered: importing the module fails (`C36_builtin_base_false`, `C36_namespace_binder_false`).

Functions, enumerations, types
* C40: the unary `operator&` is bound as `__and__` (`C40_address_of_false`). `<`, `<=`, `>`, `>=`, `&&`, `||`, `!` are never bound (`C40_unsupported`).
* C43: a function that returns an rvalue reference is never bound, so `default_static_rvalue_reference_return_value_policy` and `default_member_rvalue_reference_return_value_policy` have no effect (`C43_rvalue_false`).
* C47: `typedef P *T` with a private class `P` is accepted as a result; template arguments are not checked, nor is the access of an enclosing class: `void f(P::Q &)` is bound for a private `P` with a public class `Q` (`C47_return_typedef_false`, `C47_template_argument_false`, `C47_enclosing_false`).
* C53: `enum struct` exports its values (`C53_enum_struct_false`).
* C57: a parameter `typedef A *P` requests nothing, nor do template arguments and fields (`C57_parameter_typedef_false`, `C57_template_argument_false`, `C57_field_false`).

Classes
* C48: inherited constructors ignore access and skip entries; the implicit default constructor is bound though it is deleted because of a reference field; a skipped nested class is bound (`C48_inherited_access_false`, `C48_inherited_skip_false`, `C48_deleted_default_false`, `C48_nested_skip_false`).
* C49: the key that keeps functions apart in a trampoline ignores `const`; a final function in one base hides a pure one in another (`C49_const_overload_false`, `C49_final_false`).
* C50: the same function can be declared twice if it is declared with and without a top-level `const` (`C50_signature_false`).
* C51: private overrides and virtual diamonds forward to the wrong implementation or override a final function (`C51_private_false`, `C51_diamond_false`, `C51_final_false`). If two unrelated bases have virtual functions of the same signature, the callback structure overrides both with one function that forwards to that of the first base, so a call through the second base runs the wrong function (`C51_two_bases_false`).
* C52: a copy constructor with further parameters is only available with one argument (`C52_copy_default_false`).
* C59: `noexcept(true)` is dropped, `noexcept(false)` and `throw(X)` become `throw()` (`C59_noexcept_true_false`, `C59_noexcept_false_false`).
* C60: keywords are lost in the shorter constructor statements of a class with a callback structure (`C60_callback_false`).
* C62: a field whose type is spelled with a namespace or a typedef is not checked for a deleted assignment (`C62_sugar_false`).
* C63: insertion operators are looked up by the unqualified template name for specialisations (`C63_template_false`).
* C65: a class with `std::enable_shared_from_this` and a protected destructor gets a `std::shared_ptr` holder (`C65_shared_false`).

Includes and caches
* C67: members from template bases, and nested classes defined outside their class, do not bring their headers (`C67_inherited_false`, `C67_nested_false`).

Whole runs
* C70: with `--max-file-size 0` a run that has anything to bind never returns (`C70_zero_false`).
* C71: a class that derives from a public nested class of another class (`struct A { struct N {}; }; struct B : A::N {};`) ends the run with `Could not find binder for type` (`C71_nested_base_false`): nested classes have no binder of their own, but `maybe_base_classes` makes them dependencies.
* C72: the root module of an earlier run is emptied before sorting, so it is lost when the run then exits (`C72_root_lost_false`).
* C73: with several input files every file starts with an empty `Context` and overwrites the root module; only the last one is in the module (`C73_several_false`).
* C75: `sort_binders` does not know the bases of nested classes. `template<class T> struct X : T {}; struct Base {}; struct D {}; struct O { struct N : Base {}; }; X<D> x;` gives a module that registers `O::N` before its base `Base`: the import fails (`C75_nested_false`).
* C81: the run returns, but the module cannot be imported, for `namespace n { struct f {}; void f(); }` (`C81_same_name_false`), `struct A { int f(); static int f(int); };` (`C81_static_false`; the option `prefix_for_static_member_functions` helps), `struct A {}; struct B : virtual A {}; struct D : virtual A, B {};` (`C81_diamond_false`), a `+binder` entry for a member class, whose binder is given the module of the enclosing class (`C81_member_binder_false`), and `struct A { int x; }; struct B : A { int x(); };`, whose method has the name of a data member of a base (`C81_hidden_field_false`).
* C82: `map_binder` does not recognise the default comparator and allocator of a map whose key is a template instance or ends with an underscore, and makes them part of the name (`C82_template_key_false`, `C82_underscore_false`); `vector_binder` ignores the allocator, so `std::vector<int>` and `std::vector<int, Pool<int>>` have one name (`C82_same_vector_name_false`); maps from `a::b` to `c` and from `a` to `b::c` have one name (`C82_same_map_name_false`); a vector of pointers is called `vector_A_*` (`C82_pointer_false`).
* C55: the tables of decisions are keyed by addresses that do not outlive a translation unit (`C55_second_unit_false`).

Seen while modelling, without a theorem of their own: the key `" std::adopt_lock"` of the include table begins with a space and never matches; line 343 of `function.cpp` asks again whether the function name is to be skipped, which line 336 has already answered; `add_relevant_includes_cached` is never called; for an inherited virtual function a custom trampoline call names the structure of the base; `prefix_includes` of nested classes are dropped; the output directory is passed to a shell in `mkdir -p` without quoting.
* C84: a class between two bound classes that is skipped cuts the inheritance: with `struct A; struct B : A; struct D : B` and `-class B`, Python does not know that a `D` is an `A`, and functions that take an `A` reject it (`C84_skipped_base_false`).
* C87: without `--prefix` the output goes to the root directory of the file system, not to the current one, and with numbered sources the run always fails, since `mkdir -p` is called without a name (`C87_no_prefix`).
* C89: the root module is opened first and completed last: a run interrupted near its end leaves complete list files and sources with an empty root module (`C89_root_module_last`). A build system that takes the existence of `.sources` for success is misled.
* C90: without `--flat` sources are named after headers, not after the module: two modules for the same headers in one output directory overwrite each other's sources, also when made one after the other, and the first module's list of sources then names files of the second (`C90_named_after_headers`).
* C91: three kinds of calls do not work. `self` is the name pybind11 gives to the object, so a method parameter of this name cannot be given by keyword (`C91_self_false`). A function with a function parameter is bound only for the full number of arguments (`C91_function_parameter_false`). The lambda for fewer arguments of an instance of a function template calls the template without template arguments; if they cannot be deduced, the generated code does not compile (`C91_template_false`).
* C92: `get_text` reads only text nodes: of `@param x the size` only `the size` reaches Python, and verbatim blocks are lost (`C92_command_false`). Functions with `...` are bound by a lambda whose documentation is empty (`C92_variadic_false`). The comments of constructors are not used (`C92_constructor_false`).
* C94: for a class with a callback structure that is not abstract, `bind_copy_constructor` (class.cpp:1146-1148) writes first a statement for copies of the callback structure and then one for the class itself. pybind11 registers the callback structure with the same type information as the class, so each object that the second statement accepts is accepted by the first one: the second one is never reached, `A(a)` always makes a `PyCallBack_A`, and does so by taking `a` for a `PyCallBack_A` even if it is none (`C94_copy_false`).
* C95: a class with `virtual int f(); virtual int f() const;` gets a callback structure that overrides only the first (class.cpp:718-719, `is_const_overload`; the comment there says that this is deliberate). C++ code that calls `f` of a `const` object does not reach the `f` a Python class defines, silently (`C95_const_false`). Private virtual functions, which a C++ class may override (the non-virtual interface idiom), are never overridden either (class.cpp:715; `C95_private_false`).
* C96: with `struct A { int g(); }; struct B : virtual A { int g(); }; struct C : virtual A {}; struct D : C, B {};` and `-class B` (or a `B` that cannot be bound), `D().g()` is `B::g` in C++; in Python, where `D` derives from `C` and `A` only, it calls `A::g` without any diagnostic (`C96_unbound_base_false`).
* C97: members of the public bases of a class template specialisation are bound again as members of the specialisation, after its own members (class.cpp:899-920). A data member that hides one of a base, `struct B { int x; }; template<typename T> struct D : B { int x; };`, is therefore replaced: the attribute `x` of a `D<int>` reads and writes `B::x`, silently (`C97_hidden_false`).
* C98: only the namespaces `global` and `nonlocal` are renamed. For `struct K { int from; };` the attribute `from` cannot be written as `k.from`, and the class for `Signal<void (int)>` is called `Signal_void_(int)_t` (`C98_words_false`).
* C99: an exported enumerator, a data member or a function whose name begins with `_` silently takes a name that was given before. In `struct S { enum kind { a } kind; };` (legal C++, where `enum S::kind` names the enumeration) the property for the data member replaces the Python class of the enumeration, so nothing in Python stands for it (`C99_taken_false`). The namespaces `global` and `global_` would both become the submodule `global_`, and `global` and `nonlocal` are renamed only in Python, not in error messages.
* C100: operators that are not members are never bound (`is_bindable`), without a message. For classes with `bool operator==(C const &, C const &)`, `a == b` is accepted in Python and silently compares identities; `a + b` raises TypeError (`C100_free_false`). If the class of `b` is derived from that of `a`, `a == b` in Python calls the operator of `b` with the operands swapped (`C100_swapped_false`). The comparisons `<`, `<=`, `>`, `>=` are missing from the table of function.cpp, so they are never bound either.
* C101: the default policy for pointers, `automatic`, makes Python the owner of every object that a bound function returns by pointer; after `a.child()` on a class with `A *child()`, Python destroys the child although its parent will destroy it too (`C101_default_false`). The policy depends only on whether the function is a method and on the kind of the return type, so that no configuration is right for a class with a pointer getter and a factory method (`C101_both_false`).
* C102: the code for calls with fewer arguments does not compile if another function takes the same first arguments: `int f(int x)` beside `int f(int x, int n = 0)`, which C++ accepts; the lambda calls `o.f(a0)`, which is ambiguous (`C102_ambiguous_false`). It also does not compile if a parameter that is passed by value has a class that can only be moved: `int f(std::unique_ptr<B> p, int n = 0)` (`C102_copy_false`).
* C103: callback structures do not compile for classes with a virtual function that takes a class by value that can only be moved, like `virtual void f(std::unique_ptr<B> p)`: the overriding function ends with `return A::f(a0)` instead of moving (`C103_copy_false`); nor for `virtual int f(int x); int f(int x, int n = 0);` (`C103_ambiguous_false`); nor for `struct D : x::B, y::B` with virtual functions in both bases, because the calls name the classes without namespace (`C103_class_name_false`).
* C104: `function_pointer_type` ignores the qualifiers `&`, `&&` and `volatile`: for `struct A { int f() &; int f() &&; };` both functions are bound as `(int (A::*)()) &A::f`, which does not compile (`C104_qualifier_false`). It also writes the result in front of ` (A::*)()`, so functions that return references to functions, or `typedef int (&R)[3]`, give text that is no C++ type (`C104_result_false`, `C104_typedef_false`).
* C105: bit-fields are bound like other members, so the code for `struct A { unsigned x : 3; unsigned : 5; };` contains `&A::x` and `&A::` and does not compile (`C105_bits_false`, `C105_unnamed_false`).
* C106: callback structures leave out `&`, `&&` and `volatile`, so for `struct A { virtual int f(int x) &; };` the generated code does not compile (`C106_qualifier_false`); nor for `virtual int f(int (&g)(int))`, which is declared as `int f(int (&)(int) a0)` (`C106_function_false`).
* C107: the table of Python types has `pybind11::bytesarray` instead of `pybind11::bytearray`, and no `pybind11::dtype`. For `void f(pybind11::bytearray b)` the run binds the class `pybind11::bytearray` with the base `pybind11::object`, which is never registered, so the module cannot be imported (`C107_bytearray_false`).
* C108: names are compared with `std::set`, `std::map`, ... as prefixes, so `std::set_terminate`, `std::set_union` bring `<set>` (`C108_prefix_false`). For `<bits/streambuf_iterator.h>` the table has `<streambuf>` instead of `<iterator>`, for `<bits/sched.h>` `<unistd.h>` instead of `<sched.h>`, for `<__tree>` `<iterator>` instead of `<map>`, for `<bits/gthr-default.h>` `<pthread.h>`; these do not include the internal header (`C108_internal_false`).
* C109: functions are bound in the order of their declarations, and pybind11 calls the first one that takes the arguments. After `f(A &)` a function `f(D &)` for a class `D` derived from `A` is never reached, nor is `f(D &)` after `f(D *)`; `f() const` hides `f(int n = 0)` (`C109_order_false`, `C109_derived_false`, `C109_const_false`).
* C110: an enumeration in an anonymous namespace is bound as `pybind11::enum_<n::(anonymous namespace)::E>(M("n::(anonymous namespace)"), ...)`; functions that take it, and templates with arguments from an anonymous namespace, are bound too. The generated code does not compile (`C110_enum_false`).
* C111: a class `B` with a destructor that is not public is held by a plain `B*`, and functions that take `std::shared_ptr<B>` are bound all the same; called with an object of `B`, pybind11 copies the plain pointer as if it were a `std::shared_ptr` (`C111_pointer_false`). With `+custom_shared std::unique_ptr`, a class with a base whose destructor is protected makes the import fail (`C111_import_false`). The shipped binders of `std::vector` and `std::map` always use `std::shared_ptr`: with `+custom_shared my::ptr`, a function that takes `my::ptr<std::vector<int>>` is bound, and pybind11 copies the `std::shared_ptr` of the object as if it were a `my::ptr` (`C111_shipped_false`).
* C112: built with LLVM 5 or earlier, the enumerators of an enumeration in an `extern "C"` block inside a namespace lose the namespace (`C112_block_false`), those in an anonymous namespace inside a namespace are written `n::::red` (`C112_anonymous_false`), and those in a class template specialisation are written without the template arguments (`C112_specialisation_false`). Newer versions take the name from clang.
* C113: a custom trampoline for `B::f` is also called in the callback structure of a class `D` derived from `B`, but as `g<B, PyCallBack_B>(this, ...)`, and `this` is no `PyCallBack_B`: the code does not compile (`C113_inherited_false`). The name of the function given to `g` is its C++ name, for example `operator()`, not the one it has in Python.
* C114: with `+default_call_guard pybind11::gil_scoped_release` (documented as "applied to all function definitions"), constructors are bound without the guard (`C114_constructor_false`), and a virtual function of an object of a Python class that does not override it takes the lock back before its C++ implementation is called, because the variable that acquires the lock lives until the end of the function (`C114_virtual_false`).
* C115: `int operator""_km(unsigned long long)` is bound as `"operator""_km"`, which C++ reads as `"operator_km"`. A function named `operator_km` in the same namespace becomes an overload of it (`C115_clash_false`).
* C116: `std::function` and `std::complex` get no Python class, and functions that take them are bound, but `pybind11/functional.h` and `pybind11/complex.h` are included only if the configuration adds them; without, the call raises a `TypeError` (`C116_function_false`).
* C117: With `+include <pybind11/stl.h>` in place of `--include-pybind11-stl`, or with `-python_builtin std::vector` and the option, `std::vector` gets a Python class and the header that converts it to lists is included; nothing declares the type opaque (`generate_opaque_declaration_if_needed` is never called), so that functions ignore the class (`C117_both_false`).
* C118: The word `union` is not in the table of words that are taken away from the type of the result of a lambda: for `union A f(int x, int y = 0)` the binding has `-> union A { return f(a0); }`, which compilers that need the workaround take for a definition (`C118_union_false`).
* C119: The replacements of `standard_name` do not look for whole words: a class `my::fat_nullptr_t` is written `my::fat_std::nullptr_t`, and `mystd::__1::A` is written `mystd::A` (`C119_nullptr_false`, `C119_word_false`).
* C121: with `--annotate-functions` every signature has its parameters twice, as in `// function-signature: int n::g(m::S, m::S)(m::S, m::S)`, because `function_qualified_name` has them already when function.cpp:457 (and class.cpp:1039, 1084, 1111) add them. Proved: `C121_annotation_false`.

## 5. What is modelled and what is not

Modelled, by file:

* `config.cpp`: reading and all queries.
* `context.cpp`: registration, requests, binding, sorting, file naming, `generate` with the text of every file it writes (root module, `.sources`, `.modules` included), `update_source_file`.
* `util.cpp`: all string helpers except `expr_to_string` and `template_argument_to_string` (inputs) and `file_name_prefix_for_binder`'s use of clang (its result on names is modelled).
* `type.cpp`: names, `is_python_builtin`, `is_banned_symbol`, `is_bindable`, `request_bindings`, skip/bind queries on types, includes. `simplify_std_class_name` with its regular expressions (`Model/Simplify.lean`); the other models take it as a parameter `simplify`.
* `function.cpp`, `enum.cpp`: all, with the text of the bindings.
* `class.cpp`: all queries and the text of the binding: callback structure, constructors, members, `__str__`, nested classes. Not: the text inside the templates of the buffer protocol.
* static caches (`Model/Memo.lean`).
* the operations on files of a run, one by one, with output streams that hold text back (`Model/Steps.lean`). `mkdir -p`, reading an old file and opening a file are atomic; paths are compared as texts.
* `stl_binders.hpp`: the names, C++ types and holders of the Python classes (`Model/StlBinders.lean`).
* `main.cpp`: `BinderVisitor`, `BinderASTConsumer`, the sequence of input files (`Model/Run.lean`). The order in which clang comes to the declarations is an input; the configuration is given as read.

Not modelled: clang itself (parsing, name lookup, template instantiation), `options.hpp`/`cl::opt` parsing, `fmt`, the pybind11 headers (except for what C81, C91, C94 and C95 assume of them, `Spec/Import.lean`, `Spec/Call.lean`, `Spec/Construct.lean` and `Spec/Virtual.lean`) and the C++ compiler that later reads the generated text, error output, the members that pybind11 gives to the Python classes of vectors and maps (those that `stl_binders.hpp` adds are modelled, C120).

Assumptions on the input: ASCII characters; C81, C84 and what builds on them take names in string literals as they are written, which is not so for the operators of user-defined literals (C115); `Env.Wellfounded` (bases, template arguments and nesting have no cycles), which every program accepted by clang satisfies; where used, the example environments show that it can be met.

## 6. Axioms

`AXIOMS.txt` lists, for every theorem named in `MANIFEST.json`, the axioms it depends on (output of `#print axioms`, written by `tools/axioms.sh`). Only `propext`, `Classical.choice` and `Quot.sound` occur.

## 7. Check of the model against recorded results

The authors of binder keep 40 headers with the files the program writes for them (`/repo/test/T*.hpp`, `T*.ref.cpp`). `Verif/Conform/`
gives the declarations of 30 of them in the form in which clang reports them and runs the model (`TransUnit.runF`, with the
configuration read from the `.config` file and the options of `self-test.py`). The file the model writes is the recorded file, character by
character. These are tests of the model (evaluated with `#guard`, outside the kernel), not proofs; no theorem depends on them.

The recorded files are older than the pinned source: five fixed pieces of text have changed since, and the files are compared after the
same substitutions: `PYBIND11_DECLARE_HOLDER_TYPE(T, ...)` has a third argument `false` (context.cpp:135, 440), `using ModuleGetter` replaces a
`typedef`, `return ns+'_'` and `return pybind11::detail::cast_safe` have lost an `else`, and the condition in the loop over the submodules
uses `empty()`.

Not compared: T40, T42, T43, T60.pybind11, T61 (they depend on the contents of the installed C++ library or of pybind11). Of T42 the names
of the standard containers are compared (`Conform/Names.lean`), except those of maps and sets of nested containers, which take the
interpreter too long.

The comparison has corrected the model once: T02 showed that canonical types must collapse references to references (`Ty.mkLRef`). It also
explains three details one would not expect from the source: `// Base::InnerBase` as the reason of an include line comes from the injected
class name (T15), the docstring of the first class of a file is the comment at the top of the file (T15.inner_class.fwd), and
`enum struct` values are exported (T01, section 4).
