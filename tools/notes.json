{
 "C12": {
  "note": "Full: loop equals the unique left-to-right substitution; divergence for an empty pattern."
 },
 "C13": {
  "note": "One-character separators (the only ones the tool uses) in full; the general statement is refuted by C13_split_multichar_false."
 },
 "C17": {
  "note": "The whole-identifier claim is false (underscore is treated as a boundary: _Bool_t becomes bool_t); the partial theorem covers inputs where every _Bool that touches an underscore is excluded."
 },
 "C19": {
  "note": "Character claims proved; injectivity and 'is an identifier' are refuted with witnesses; the identifier claim is proved for names over letters, digits, underscore and separators."
 },
 "C04": {
  "note": "Everything except the text of the +include block, which is written once per reading (C04_includes_code_false)."
 },
 "C07": {
  "note": "Holds for class, function, buffer_protocol and smart_holder lines; enum and field lookups keep spaces in the query: refuted with the very name written in the file."
 },
 "C08": {
  "note": "Refuted (raw string prefix: 'foo' governs 'foobar'); proved: nested namespaces are covered and an entry never affects a namespace whose text does not start with it."
 },
 "C20": {
  "note": "For the generated sources; the root, .sources and .modules files are opened for writing in every run (context.cpp:339, 488-493)."
 },
 "C21": {
  "note": "Header-based names in full; with --flat the name is the user's own --root-module plus a number."
 },
 "C22": {
  "note": "Proved in flat mode; with header-based names refuted three ways (C22_*_false) and proved when header names do not look numbered, collide after '/'->'_' or equal the root module."
 },
 "C33": {
  "note": "+binder_for_namespace in full; the add-on when the namespace has no binder of its own (otherwise the add-on is never called: C33_both_false)."
 },
 "C36": {
  "note": "End-to-end over register/bind/sort/write for class hierarchies without builtin bases and without +binder_for_namespace on a class's namespace; both exceptions are refuted with witnesses."
 },
 "C40": {
  "note": "Meaning, arity and names proved for the whole table and all names; two bindable operators share a name only if they are the same operation, except the unary operator& (refuted with a witness)."
 },
 "C44": {
  "note": "The precedence rules of skip entries in full; bind entries: the exact rule, which for libc++/libstdc++ inline namespaces differs from the claim (witness), and typedef'd pointers escape -class (witness)."
 },
 "C46": {
  "note": "Functions in full, classes if a non-empty argument is left; `std::tuple<>` is printed as `std::tuple>` (witness)."
 },
 "C47": {
  "note": "Exact characterisation through pointers, references and (for parameters) typedefs; results behind typedefs, template arguments and enclosing classes are not checked (witnesses)."
 },
 "C48": {
  "note": "Exact characterisations for methods, fields, enumerations, nested classes and constructors; inherited constructors, the implicit default constructor and nested classes escape access, deletion or skip entries (witnesses)."
 },
 "C49": {
  "note": "Every overridable pure virtual function of every class the structure walks gets an override unless a signature key clash or a final function hides it; both exceptions are witnessed."
 },
 "C50": {
  "note": "No two functions with the same key; no two with the same C++ signature if no parameter has top-level const or a sugared size_t; the exception is witnessed."
 },
 "C51": {
  "note": "Each override forwards to a real implementation; in single inheritance without private overrides to the most derived one, and with several bases, none of them a base in two ways, to the final overrider (C51_final_overrider_partial); private overrides, virtual diamonds and unrelated bases with functions of the same signature (C51_two_bases_false) are refuted."
 },
 "C52": {
  "note": "Exact arities for all constructors except copy constructors with further parameters (witness)."
 },
 "C53": {
  "note": "Entries and values in full; export is wrong for `enum struct` (witness)."
 },
 "C55": {
  "note": "Within one translation unit in full, for every history of calls; for names in every unit; the decisions are stale across units (witness)."
 },
 "C56": {
  "note": "Refuted for names that mention nullptr_t and for _Bool as an argument of a container (C56_bool_false). Proved, with the simplification of the program in place, for all names without _Bool in whose normal form none of the thirteen rewritten spellings is left (C56_normal_partial)."
 },
 "C57": {
  "note": "Exact for results and sugar-free parameters and for all bound members of a class; typedef'd parameters, template arguments and fields are not requested (witnesses)."
 },
 "C59": {
  "note": "For no specification, throw(), __declspec(nothrow), noexcept; refuted for noexcept(true), noexcept(false) and throw(X)."
 },
 "C60": {
  "note": "Without callback structure, and always for the statement with all arguments; other statements of a class with a callback structure have no keywords (witness)."
 },
 "C62": {
  "note": "Exact if the field type is not hidden behind a typedef or elaborated name; otherwise refuted."
 },
 "C63": {
  "note": "'Gets one if printable' in full; 'only if' for classes that are no specialisations; refuted for specialisations."
 },
 "C65": {
  "note": "Exact for all classes (C65_holder_partial, C65_shared_holder); refuted for a class with a hidden destructor that inherits from std::enable_shared_from_this."
 },
 "C67": {
  "note": "Free functions in full; members declared in the class and classes nested in it; refuted for members of template bases and nested classes defined outside."
 },
 "C70": {
  "note": "Proved for every limit of at least one character; refuted for --max-file-size 0."
 },
 "C71": {
  "note": "Both directions; refuted where the base is a public nested class, which is declared but bound with its outer class."
 },
 "C72": {
  "note": "Per kind of failure; refuted for the root module, which is emptied before sorting can fail."
 },
 "C73": {
  "note": "Refuted; the last file's bindings are complete."
 },
 "C75": {
  "note": "For classes, and for nested classes whose bases are bound before them with the same outermost class; refuted for other nested classes with bases (their dependencies are not passed to the outer class)."
 },
 "C74": {
  "note": "For distinct file names (as C20)."
 },
 "C69": {
  "note": "For distinct file names (as C20, C22)."
 },
 "C76": {
  "note": "C76_headers: nothing is missing; C76_only: nothing else is included. The headers asked for are those of C54; C67 relates them to the signatures."
 },
 "C77": {
  "note": "Termination and stability hold for all names. Refuted: multiset becomes a multiset of pointers, brackets can be lost, classes outside std are shortened. Proved for names without multiset: only default arguments are dropped; for the twelve containers of types that are written without default arguments, with or without template arguments: the short name is the right one; for lists of lists, deques of deques and vectors of vectors of any depth: no default argument is left at any level; for the stream classes: those with a name get it, except the wide ones whose row is never used (refuted)."
 },
 "C78": {
  "note": "Proved for whole runs and unrestricted comments, if names, types, template arguments and configuration texts have no quotes, backslashes, slashes or line ends of their own. Refuted for a class template with a character argument that is a quote. The hypotheses on standard_name are about the names of the program, not about the simplification itself, whose results can be broken (C78_simplified_false); C78_plain_names gives a condition that implies them for the function the program uses."
 },
 "C79": {
  "note": "For consistent units (redeclarations agree, as C++ demands) and distinct file names (as C20, C22)."
 },
 "C80": {
  "note": "For names without spaces, line ends and final carriage return; C80_words_needed shows that the hypothesis is needed."
 },
 "C81": {
  "note": "Python and pybind11 are a small machine (Spec/Import.lean). Import succeeds for programs whose names do not clash and whose classes have a Python search order, given what C75 assumes; C81_needed shows that these conditions are needed. Refuted for a class and a function of the same name, static and other functions of the same name, virtual bases listed before their derived classes, and binders for member classes. C81_hidden_field_false: a method that hides a data member of a base class makes the import fail, because pybind11 finds the inherited property and refuses to overload it."
 },
 "C82": {
  "note": "The default arguments are recognised if key and value are no template instances, pointers or references and do not end with an underscore; names are different for element, key and value types named by plain words. Refuted for template keys, trailing underscores, other allocators of vectors, names that agree after mangling, and pointers."
 },
 "C83": {
  "note": "Holds for every two sets of values of root, prefix, flat, single-file, max-file-size and trace. The options that the generators of single bindings read (include-pybind11-stl, annotate-includes, annotate-functions, skip-line-number) are part of the environment and not varied here."
 },
 "C84": {
  "note": "Names, modules and subclasses exactly, for every import that succeeds; inheritance is that of the bases listed in the class statements (C61). Refuted for C++ inheritance through a class that is not bound. C84_module_name: the module has the name of --root-module."
 },
 "C85": {
  "note": "Same statements, modules and import (C85_same_module), same kind of end (C85_same_end), same headers (C85_same_headers, for -include entries without blanks), same code apart from comments (C85_same_code, for programs whose names and types have no line ends in them, as C++ demands)."
 },
 "C86": {
  "note": "C86_reached: declarations. C86_module: sources, names of the imported module, modules, subclasses. C86_files: what editing the lines of a configuration file does to the requests. The run with more requests has to return: contradictory requests end it with an exception."
 },
 "C87": {
  "note": "C87_unclear: exactly when a query has no answer. C87_answers: it always has one for agreeing requests, so the simplification of queries inside the generator (`answer`) is harmless there. C87_contradiction: the failing case. C87_succeeds: sufficient conditions for success. C87_no_directory, C87_no_prefix: missing output directory, missing option. C87_from_file: the condition in terms of the lines of the file."
 },
 "C88": {
  "note": "C88_reached: declarations, for programs in which declarations of the same name say the same. C88_module: sources, names of the imported module, modules, subclasses, for programs in which no two declarations have the same name. The declarations of the first program have to mean the same in the second (a header that completes a class changes it)."
 },
 "C89": {
  "note": "For distinct file names (as C20), and list files that are not directories. The files of a run are those of the complete run (big-step model of C69-C76); the small steps are tied to it by C89_recovers, and for runs that fail by C89_failed_runs. C89_root_module_last: the root module is completed last, so both list files can be complete while the root module is empty. `mkdir -p`, reading an old file and opening a file are one operation each."
 },
 "C90": {
  "note": "For distinct file names (as C20), and list files that are not directories. C90_named_after_headers: without --flat two modules for the same headers in one directory write the same sources, even one after the other, so the condition on files is needed. Paths are compared as texts."
 },
 "C91": {
  "note": "For functions and methods (C91_call_partial) and constructors (C91_construct_partial). Refuted: a method parameter named self cannot be given by keyword; default arguments of functions with a function parameter must be given; the lambda for fewer arguments of a template instance calls the template without its arguments."
 },
 "C92": {
  "note": "C92_text_partial, C92_same_line, C92_function_partial, C92_class, C92_enum. Refuted: what commands say (C92_command_false), functions with ... (C92_variadic_false), constructors (C92_constructor_false)."
 },
 "C93": {
  "note": "Partial for the reasons of C91: parameters named `self`, functions that take functions, template instances. Constructors and `__str__` are covered by C60/C91 and C52 and are left out here. Assumed: the module can be imported, the name is not also that of a class, property or enumerator in the same scope."
 },
 "C94": {
  "note": "Partial because of copies of classes with a callback structure that are not abstract (`C94_copy_false`, DESIGN.md section 4). Assumed: the module can be imported, no method or property of the class is named `__init__`."
 },
 "C95": {
  "note": "Partial: `const` functions next to one that differs only in not being `const` and private virtual functions are not overridden (DESIGN.md section 4). Assumed: function can be bound and is not skipped, no function with its signature in the hierarchy is `final`, no custom trampoline. Conversion of values, results and exceptions from Python are left out."
 },
 "C96": {
  "note": "Partial: if a base is not bound, a name may be found in a class whose declaration is hidden in C++ (DESIGN.md section 4). Names are those of bound declarations; the import is assumed to succeed (C81)."
 },
 "C97": {
  "note": "Partial: fields of bases of template specialisations replace fields of the same name (DESIGN.md section 4). Assumed: no field of an anonymous class and nothing else in the Python class has the name; the name of the class does not end with a parenthesis."
 },
 "C98": {
  "note": "C98_words_partial: if the C++ names are words of Python (and template arguments have only the characters named), all names in the module are. C98_words_false: a data member `from` becomes an attribute that cannot be written, and `Signal<void (int)>` becomes a class named `Signal_void_(int)_t`. Missing: user-defined literals, whose name has quotation marks; class names that contain `nullptr_t`."
 },
 "C99": {
  "note": "C99_modules: the submodules. C99_dotted_partial: classes, member classes, enumerations, enumerators, functions, if the names on the path are not taken by something else and different namespaces get different Python names. C99_kinds: agreement with the interpreter of C81/C84. C99_taken_false: a data member takes the name of an enumeration in the same class. Missing: functions of the user, which are trusted not to change names; what an attribute of a base class stands for is C96."
 },
 "C100": {
  "note": "C100_operators_partial: the expressions reach the method in the class where C++ finds the operator, for classes all of whose bases are bound. C100_functions: this method is made of just the bound member operators with the same symbol and number of operands. C100_without: without one, TypeError, but == and != compare identities. C100_free_false: operators that are not members are never bound. C100_swapped_false: a == b where the class of b is derived from that of a. Missing: operators that Python has no table entry for (<, >, ++, ->, ...; C40_unsupported), what the functions return."
 },
 "C101": {
  "note": "C101_destroyed_once, C101_no_dangling, C101_no_leak: each part holds for all histories exactly if the configuration fits. C101_both_false: no configuration fits modules with two methods that return pointers, one of which gives the object away. C101_default_false: the default configuration does not fit a method that returns a pointer to a part of its object. Missing: std::shared_ptr and std::unique_ptr as return types, functions that take ownership of arguments, holder types that do not destroy, memory that is used again."
 },
 "C102": {
  "note": "C102_selected_partial gives the exact condition, for every lambda of every bindable function and every set of functions with its name; C102_constructors_partial the same for the lambdas of constructors. C102_ambiguous_false: `int f(int); int f(int, int = 0);`. C102_copy_false: `int f(A, int = 0)` with a class that can only be moved. Missing: function templates (see C91_template_false for instances of templates), access, constructors with all arguments, for which pybind11 makes the call."
 },
 "C103": {
  "note": "C103_fallback_partial gives the exact condition, for every function of every callback structure and every set of functions with its name. C103_ambiguous_false: `virtual int f(int); int f(int, int = 0);`. C103_copy_false: `virtual int f(B)` with a class that can only be moved. C103_class_name_partial: the class name before `::` is found if no other class in the hierarchy has it; C103_class_name_false: two bases of the same name. Missing: custom trampolines, parameters that are functions, function templates, typedefs that hide the class name."
 },
 "C104": {
  "note": "C104_address_partial: the address stands for the function exactly if it has no `volatile`, `&`, `&&`. C104_qualifier_false: `int f() &; int f() &&;`. C104_result_partial, C104_result_false, C104_typedef_false: the text of the cast is a C++ type if the type of the result is written before the name; results that are references to functions, or to arrays by a typedef, are accepted. Missing: member pointers as results, function templates called without arguments."
 },
 "C105": {
  "note": "C105_address_partial: the address is valid exactly if the member has a name and is no bit-field. C105_bits_false, C105_unnamed_false: bit-fields are bound. Missing: members of anonymous structures and unions (their names are in C62)."
 },
 "C106": {
  "note": "C106_overrides_partial: a function overrides the method exactly if the method has no `volatile`, `&`, `&&`; types are written before names unless they have function types, or typedefs of pointers and references in results. C106_qualifier_false, C106_function_false: programs. Exception specifications are in C59, final functions in C51."
 },
 "C107": {
  "note": "C107_never_bound: all runs. C107_objects_partial: pybind11's classes for Python objects except `bytearray` and `dtype`. C107_bytearray_false: a run that binds pybind11::bytearray."
 },
 "C108": {
  "note": "C108_names_partial: all listed names but those that begin with std::set_. C108_internal_partial: all listed internal headers but four. C108_prefix_false, C108_internal_false: the exceptions. The lists of the specification are trusted data."
 },
 "C43": {
  "note": "C43_rvalue_false shows that the two settings for rvalue references decide about no bound function: a function that returns an rvalue reference is never bound."
 },
 "C109": {
  "note": "C109_choice_partial: both choices agree if every function bound earlier either takes no common object or is the better one in C++. C109_order_false: they differ whenever a more general function is bound earlier; C109_derived_false and C109_const_false are concrete classes. Missing: arguments that are not objects of classes, keywords, C++ calls with user-defined conversions."
 },
 "C110": {
  "note": "C110_named_partial: functions, classes and nested classes in full; of an enumeration only its own name. C110_enum_false: an enumeration in an anonymous namespace, a function that takes it, and a template with an argument from there are all bound."
 },
 "C111": {
  "note": "C111_import_partial and C111_pointer_partial give the exact conditions; C111_shared: for classes that inherit from std::enable_shared_from_this in full. C111_pointer_false: a class with a protected destructor. C111_import_false: std::unique_ptr as configured holder and a base with a protected destructor. C111_shipped_partial: the exact conditions for the classes of the shipped vector and map binders; C111_shipped_false: another configured holder, and a function that takes such a smart pointer to a vector."
 },
 "C112": {
  "note": "C112_old_names_partial and C112_values_partial: for named contexts that are no explicit specialisations, with extern \"C\" only around all of them. C112_block_false, C112_anonymous_false and C112_specialisation_false: the other contexts."
 },
 "C113": {
  "note": "C113_custom_partial and C113_file_partial: everything but the type of the object in the structures of derived classes; C113_others in full. C113_inherited_false: in the structure of a derived class the type given is the structure of the base."
 },
 "C114": {
  "note": "C114_python and C114_kept in full; C114_released_partial: unless a function of a callback structure is reached. C114_virtual_false: a virtual function that Python does not override runs its C++ code with the lock. C114_constructor_false: constructors are bound without the guard."
 },
 "C115": {
  "note": "C115_registered_partial: name, address and documentation. C115_clash_false: the function operator_km of the same namespace gets the same name."
 },
 "C116": {
  "note": "C116_included_partial and C116_left_partial: everything converted by pybind11.h (except bytearray, see C107) and stl.h, and headers added by the user. C116_function_false: std::function and std::complex are left to pybind11 without the headers that convert them. The list of headers is trusted data."
 },
 "C117": {
  "note": "C117_once_partial: the fixed part of each source includes stl.h exactly if the configuration adds it, whenever a container is bound and the configuration does not deny that Python has it. C117_reason_partial: the same for the whole head of the source, with the reason for each line for the headers of declarations (C76). C117_both_false: with +include <pybind11/stl.h>, or -python_builtin std::vector and --include-pybind11-stl, std::vector is bound and converted. The list of headers is trusted data."
 },
 "C118": {
  "note": "C118_result_partial: names with or without const and enum, class, struct. C118_union_false: for unions the word stays."
 },
 "C119": {
  "note": "C119_renamed_partial: names without nullptr_t, multiset and wide streams. C119_whole_partial: names as clang prints them, before the containers get their short names: only whole names are replaced. C119_nullptr_false, C119_word_false: the replacements do not look for whole words."
 },
 "C120": {
  "note": "C120_history, C120_callable, C120_rejected, C120_outcome. The members that pybind11::bind_vector adds are outside of the model, except for its clear."
 },
 "C121": {
  "note": "C121_origin is for all bindings of the sources, C121_nested for all classes registered, also inside of classes. C121_annotation_partial: the annotation of functions has the signature; missing is that it ends there, which is false (C121_annotation_false: the parameters follow a second time). C121_members_partial says the same of member functions and constructors.",
  "status": "partial"
 },
 "C122": {
  "note": "C122_called. That the text calls the function is read off the line; that the compiler finds a function of this name is the user's part.",
  "status": "proved"
 }
}