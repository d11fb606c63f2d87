{"id": "C01", "title": "Longest matching namespace entry decides", "statement": "For every pair of lists of +namespace/--bind and -namespace/--skip entries and every namespace, the answer to 'should this namespace be bound?' is decided by the longest entry that is a prefix of the namespace: yes if the longest matching entry is a bind entry, no if it is a skip entry, an error if the same non-empty entry is the longest in both lists, and, when no non-empty entry matches, yes exactly when the empty bind entry is present. The answer to 'should it be skipped?' is yes exactly when the longest matching skip entry is longer than every matching bind entry, with the same error condition.", "quantifier": "all entry lists of any length, all namespaces", "why_tests_cant": "The outcome depends on the relative lengths of arbitrarily many overlapping entries; a test fixes a handful of lists.", "anchors": ["source/config.cpp: Config::is_namespace_binding_requested", "source/config.cpp: Config::is_namespace_skipping_requested"]}
{"id": "C02", "title": "A namespace is never both requested and skipped", "statement": "No configuration makes both namespace queries answer yes for the same namespace, and one query raises the conflict error exactly when the other does.", "quantifier": "all configurations, all namespaces", "why_tests_cant": "Consistency of two separately written loops over all inputs.", "anchors": ["source/config.cpp: Config::is_namespace_binding_requested", "source/config.cpp: Config::is_namespace_skipping_requested"]}
{"id": "C03", "title": "Order and repetition of config entries do not change decisions", "statement": "Every bind/skip/builtin/module-local/holder/buffer/include-skip decision depends only on the set of entries: reordering or repeating +/- lines of these kinds never changes any answer.", "quantifier": "all configurations, all permutations and repetitions of lines, all queried names", "why_tests_cant": "There are factorially many orders; tests try one.", "anchors": ["source/config.cpp: Config::read and all is_*_requested queries"]}
{"id": "C04", "title": "Reading the same config file again changes no decision", "statement": "The tool re-reads the config file once per translation unit into one global object. Reading a file that was accepted a second time is accepted again and changes no decision and no setting.", "quantifier": "all config files, all queries", "why_tests_cant": "History property over an accumulating global state.", "anchors": ["source/config.cpp: Config::read", "source/main.cpp: BinderVisitor / main"]}
{"id": "C05", "title": "The config grammar is total: each line is ignored, applied or rejected", "statement": "For every file content, reading either accepts it and applies exactly the effect documented for each line's sign and keyword, in order, or raises an error at the first malformed line (no leading +/-, no space after the keyword, unknown keyword, '-' sign on include_for_class/include_for_namespace, missing second word where two are needed); a malformed line is never silently ignored.", "quantifier": "all file contents", "why_tests_cant": "All byte strings are possible files.", "anchors": ["source/config.cpp: Config::read", "source/config.cpp: split_in_two"]}
{"id": "C06", "title": "CRLF and LF config files mean the same", "statement": "Terminating any subset of the lines of a config file with CRLF instead of LF changes neither acceptance nor any setting.", "quantifier": "all config files and all subsets of their lines", "why_tests_cant": "Unbounded files and exponentially many line-ending mixtures.", "anchors": ["source/config.cpp: Config::read"]}
{"id": "C07", "title": "Entity names in the config match regardless of spaces", "statement": "A +/-class, function, enum or field line matches a C++ entity whenever the two spellings are equal up to space characters.", "quantifier": "all config names and all entity names", "why_tests_cant": "All spellings of template names.", "anchors": ["source/config.cpp: Config::is_function_binding_requested, is_class_*_requested, is_enum_*_requested, is_field_skipping_requested"]}
{"id": "C08", "title": "A namespace entry governs exactly that namespace and the namespaces nested in it", "statement": "An entry 'foo' affects namespace foo and every namespace foo::..., and no other namespace.", "quantifier": "all entries and namespaces", "why_tests_cant": "Needs every pair of names.", "anchors": ["source/config.cpp: Config::is_namespace_binding_requested", "documentation/config.rst"]}
{"id": "C09", "title": "Explicit '-python_builtin' always wins; otherwise listed or known types are builtins", "statement": "A type named in -python_builtin is never treated as a Python builtin; otherwise it is one exactly when it is named in +python_builtin, is one of the tool's known Python types, or (when the pybind11 stl option is on) is one of the known STL containers.", "quantifier": "all configurations and type names", "why_tests_cant": "All configuration/type combinations.", "anchors": ["source/type.cpp: is_python_builtin"]}
{"id": "C10", "title": "module_local decision", "statement": "A namespace uses module_local exactly when '@all_namespaces' is added and the namespace is not in the skip list, or the namespace itself is added; the conflict error is raised exactly when '@all_namespaces' is absent and the namespace is in both lists.", "quantifier": "all configurations and namespaces", "why_tests_cant": "All list combinations.", "anchors": ["source/config.cpp: Config::is_module_local_requested"]}
{"id": "C11", "title": "Include directives are sorted, unique, and never contain a skipped include", "statement": "The include block of every generated file lists in increasing order, once each, exactly the collected includes that do not start with an entry of the -include list.", "quantifier": "all include sets and configurations", "why_tests_cant": "Unbounded sets with overlapping prefixes.", "anchors": ["source/context.cpp: generate_include_directives", "source/config.cpp: Config::is_include_skipping_requested"]}
{"id": "C12", "title": "String replacement replaces each leftmost non-overlapping occurrence exactly once", "statement": "For non-empty 'from', replace(s, from, to) terminates and equals the result of scanning s left to right and substituting 'to' for each non-overlapping occurrence of 'from', never rescanning inserted text; for empty 'from' it never terminates.", "quantifier": "all strings", "why_tests_cant": "In-place index loop over all strings, including 'to' containing 'from'.", "anchors": ["source/util.cpp: replace", "source/util.cpp: replace_"]}
{"id": "C13", "title": "Splitting is inverse to joining", "statement": "For a one-character separator, splitting a buffer and joining the pieces gives the buffer back up to one final separator, and no piece contains the separator; the same is claimed for longer separators.", "quantifier": "all buffers and separators", "why_tests_cant": "All strings.", "anchors": ["source/util.cpp: split"]}
{"id": "C14", "title": "Indentation only adds indentation", "statement": "indent(code, ind) puts ind in front of every non-empty line, leaves empty lines empty, ends every line with a newline and changes nothing else, so removing the indentation gives the code back.", "quantifier": "all code strings and indentations", "why_tests_cant": "All strings.", "anchors": ["source/util.cpp: indent"]}
{"id": "C15", "title": "Trimming removes exactly leading and trailing blanks", "statement": "trim(s) is the unique substring of s obtained by removing leading and trailing spaces and tabs; it is idempotent and never fails.", "quantifier": "all strings", "why_tests_cant": "All strings.", "anchors": ["source/util.cpp: trim"]}
{"id": "C16", "title": "Base and last namespace decompose a namespace", "statement": "base_namespace(ns) + '::' + last_namespace(ns) = ns whenever ns contains '::' (otherwise base is empty and last is ns), last contains no '::', and iterating base_namespace reaches '' in finitely many steps.", "quantifier": "all strings", "why_tests_cant": "All strings; termination of the caller's loop.", "anchors": ["source/util.cpp: base_namespace, last_namespace"]}
{"id": "C17", "title": "_Bool is rewritten exactly where it is a whole identifier", "statement": "fix_boolean_types replaces every occurrence of the identifier _Bool with bool, changes no other identifier, terminates and is idempotent.", "quantifier": "all type strings", "why_tests_cant": "All strings and all neighbouring characters.", "anchors": ["source/util.cpp: fix_boolean_types"]}
{"id": "C18", "title": "Documentation strings survive the trip through C++ source", "statement": "The text placed between quotes in the generated C++ contains no unescaped quote, no raw newline and no dangling backslash, and reading it back with C++ string-literal rules gives exactly the original comment text without its leading blanks.", "quantifier": "all comment texts", "why_tests_cant": "Adversarial texts (quotes, backslashes before quotes, newlines).", "anchors": ["source/util.cpp: generate_documentation_string_for_declaration"]}
{"id": "C19", "title": "Mangled type names are usable as identifiers", "statement": "The Python/trampoline name derived from a C++ type name contains none of ' <>,:' , has no doubled underscore introduced by a run of separators, marks template names with a final 't', and contains no '*' or '&' when the name is a template. (A user also expects distinct classes to get distinct names and the result to be an identifier.)", "quantifier": "all type names", "why_tests_cant": "All strings; injectivity is a property of pairs.", "anchors": ["source/util.cpp: mangle_type_name", "source/class.cpp: python_class_name", "source/class.cpp: callback structure name"]}
{"id": "C20", "title": "A generated file ends up with exactly the generated text, and is rewritten only if it changed", "statement": "After writing source file F with non-empty text T, F exists with content T, its directories exist, no other file changes; F is written only if its previous content differed, so a second identical run writes nothing.", "quantifier": "all file-system states, names and texts", "why_tests_cant": "All prior states of the file system and all histories of runs.", "anchors": ["source/util.cpp: update_source_file"]}
{"id": "C21", "title": "Generated file names are safe", "statement": "The name of every generated source, for every include path, consists only of letters, digits, '_', '/', '<', '>' plus the final '.cpp', so it can contain no '..' component and cannot leave the output directory.", "quantifier": "all include paths and namespaces", "why_tests_cant": "All path strings, including hostile ones.", "anchors": ["source/context.cpp: file_name_prefix_for_binder"]}
{"id": "C22", "title": "No generated file overwrites another", "statement": "Within one run, the source files and the bind functions written get pairwise distinct names.", "quantifier": "all sequences of bound declarations, both naming modes", "why_tests_cant": "Collisions depend on arbitrary combinations of header names and split counts.", "anchors": ["source/context.cpp: Context::generate (file_names map)"]}
{"id": "C23", "title": "One declaration is registered once", "statement": "Whatever the traversal order and however often the same declaration is offered, the list of registered declarations has no repeated identifier, keeps first-seen order, and contains every identifier offered.", "quantifier": "all sequences of registrations", "why_tests_cant": "All visit histories.", "anchors": ["source/context.cpp: Context::add"]}
{"id": "C24", "title": "The set of bound declarations is the least set closed under the requests", "statement": "Generation binds exactly the bindable declarations that are requested by the configuration or, transitively, requested while binding another bound declaration; nothing else.", "quantifier": "all declaration graphs and configurations", "why_tests_cant": "Transitive closure over arbitrary graphs.", "anchors": ["source/context.cpp: Context::bind, Context::request_bindings"]}
{"id": "C25", "title": "Binding terminates", "statement": "For every finite set of declarations the binding passes stop after at most one more pass than there are declarations, and each declaration is bound at most once.", "quantifier": "all declaration graphs, including cyclic ones", "why_tests_cant": "Termination over all graphs.", "anchors": ["source/context.cpp: Context::bind"]}
{"id": "C26", "title": "What gets bound does not depend on declaration order", "statement": "Permuting the order in which declarations are discovered does not change the set of bound declarations.", "quantifier": "all permutations", "why_tests_cant": "Factorially many orders.", "anchors": ["source/context.cpp: Context::bind"]}
{"id": "C27", "title": "Skipped, unbindable and builtin types are never pulled in", "statement": "A type that the user asked to skip, that is not bindable, or that is a Python builtin is never bound because some other declaration mentions it.", "quantifier": "all declaration graphs and configurations", "why_tests_cant": "Every path of requests.", "anchors": ["source/context.cpp: Context::request_bindings"]}
{"id": "C28", "title": "Dependency sorting only reorders", "statement": "After sorting, the list of declarations is a permutation of the list before sorting.", "quantifier": "all lists and dependency relations", "why_tests_cant": "All lists.", "anchors": ["source/context.cpp: Context::sort_binders"]}
{"id": "C29", "title": "Base classes come before derived classes", "statement": "When sorting finishes, every non-builtin class a class depends on appears earlier in the list than that class.", "quantifier": "all dependency relations", "why_tests_cant": "All graphs.", "anchors": ["source/context.cpp: Context::sort_binders"]}
{"id": "C30", "title": "Sorting terminates on acyclic dependencies and fails only for a missing declaration", "statement": "If the dependency relation is acyclic and every non-builtin dependency is declared, sorting terminates without error; if a dependency is declared nowhere the tool exits with an error instead of producing code; on a cyclic dependency it never terminates.", "quantifier": "all dependency relations", "why_tests_cant": "Termination over all graphs.", "anchors": ["source/context.cpp: Context::sort_binders"]}
{"id": "C31", "title": "Every bound declaration is emitted exactly once, in sorted order", "statement": "The bodies of the generated files, concatenated in the order in which the bind functions are called, contain the code of every bound declaration exactly once and in sorted order, except the declarations of a namespace replaced by +binder_for_namespace.", "quantifier": "all declaration lists, all file size limits, all options", "why_tests_cant": "All ways of splitting.", "anchors": ["source/context.cpp: Context::generate"]}
{"id": "C32", "title": "Code generation terminates for every positive file size limit", "statement": "With --max-file-size at least 1 the writing loop terminates; (with 0 it does not).", "quantifier": "all declaration lists and limits", "why_tests_cant": "Termination over all inputs.", "anchors": ["source/context.cpp: Context::generate"]}
{"id": "C33", "title": "A namespace-level binder is called exactly once per namespace", "statement": "If +binder_for_namespace or +add_on_binder_for_namespace names namespace N and N has a bound declaration, the generated code calls that function exactly once, before any other generated code of N.", "quantifier": "all declaration lists and limits", "why_tests_cant": "All splittings of a namespace over files.", "anchors": ["source/context.cpp: Context::generate (namespace_entrance)"]}
{"id": "C34", "title": "Every generated file holds declarations of a single namespace and respects the size limit", "statement": "Each generated file contains code of one namespace only, and dropping its last declaration always leaves less code than the limit.", "quantifier": "all declaration lists and limits", "why_tests_cant": "All splittings.", "anchors": ["source/context.cpp: Context::generate"]}
{"id": "C35", "title": "At import time no namespace module is used before it is created", "statement": "In the generated module every namespace used by emitted code has a sub-module, and sub-modules are created parents first, so neither the creation loop nor any M(\"ns\") call fails.", "quantifier": "all sets of namespaces", "why_tests_cant": "All namespace trees; depends on lexicographic order.", "anchors": ["source/context.cpp: Context::create_all_nested_namespaces", "source/context.cpp: main_module_header"]}
{"id": "C36", "title": "At import time every listed base class is already registered", "statement": "Running the generated bind functions in order, each class_<> statement names only base classes that an earlier statement has registered (or that are builtins), so importing the module does not fail.", "quantifier": "all class hierarchies", "why_tests_cant": "All hierarchies, file splits and orders.", "anchors": ["source/context.cpp: Context::sort_binders, Context::generate", "source/class.cpp: maybe_base_classes, bind_nested_classes"]}
{"id": "C37", "title": "The .sources list names exactly the files of the module and every bind function is declared and called once", "statement": "The .sources file lists the root file and each written source in order of writing; the root module declares and calls exactly one function per source, in the same order; the single-file mode emits the same functions.", "quantifier": "all runs", "why_tests_cant": "All runs.", "anchors": ["source/context.cpp: Context::generate"]}
{"id": "C38", "title": "The .modules list names exactly the namespaces and their ancestors", "statement": "The .modules file lists once each, in order, exactly the namespaces of emitted declarations and all their ancestors, with '.' for '::'.", "quantifier": "all runs", "why_tests_cant": "All namespace sets.", "anchors": ["source/context.cpp: Context::create_all_nested_namespaces, Context::generate"]}
{"id": "C39", "title": "Trace lines are pairwise distinct", "statement": "With --trace, no two trace statements of a run print the same text.", "quantifier": "all runs and ids", "why_tests_cant": "All histories of the counter.", "anchors": ["source/context.cpp: Context::trace_line"]}
{"id": "C40", "title": "C++ operators get the right Python special method", "statement": "Every overloadable operator in the tool's table is mapped, according to the number of parameters, to the Python special method with the same meaning, distinct operations get distinct names, and everything else keeps its name.", "quantifier": "all function names and arities", "why_tests_cant": "All names, arities; injectivity is about pairs.", "anchors": ["source/function.cpp: cpp_python_operator, python_function_name"]}
{"id": "C41", "title": "Every call with default arguments omitted is available", "statement": "For a function with n parameters, the first default at position d, exactly one overload is registered for each arity from d to n (only arity n if there is no default or a parameter is a function), in increasing order of arity, and each overload passes exactly its arguments to the C++ function.", "quantifier": "all function signatures", "why_tests_cant": "Unbounded parameter lists.", "anchors": ["source/function.cpp: bind_function"]}
{"id": "C42", "title": "Keyword names match parameters", "statement": "Each registered overload carries exactly as many keyword annotations as it has parameters, in order, with the parameter's own name.", "quantifier": "all signatures", "why_tests_cant": "Unbounded lists.", "anchors": ["source/function.cpp: bind_function, function_arguments_for_lambda"]}
{"id": "C43", "title": "Ownership policy follows the kind of return type and function", "statement": "A function returning a pointer, lvalue reference or rvalue reference is emitted with the configured policy for its kind (static or member); every other return type uses the automatic policy; a configured call guard is always emitted.", "quantifier": "all functions and configurations", "why_tests_cant": "All combinations.", "anchors": ["source/function.cpp: bind_function"]}
{"id": "C44", "title": "Skip beats bind, and the more specific name beats the less specific one, for functions", "statement": "For every function, a -function entry for its full signature beats everything; then a +function entry for the signature; then entries for the bare name; then the namespace and type entries.", "quantifier": "all functions and configurations", "why_tests_cant": "All combinations of overlapping entries.", "anchors": ["source/function.cpp: is_binding_requested, is_skipping_requested"]}
{"id": "C45", "title": "Skip/bind precedence for classes and enums", "statement": "For every class, a -class entry for its name beats a +class entry, which beats the namespace entries; a class with a skipped template argument is skipped.", "quantifier": "all classes and configurations", "why_tests_cant": "All combinations, nested template arguments.", "anchors": ["source/class.cpp: is_binding_requested, is_skipping_requested", "source/enum.cpp: is_binding_requested, is_skipping_requested"]}
{"id": "C46", "title": "Template argument lists are printed as balanced C++", "statement": "The specialised name of a class or function template is the name followed by the comma separated, non-empty argument strings in angle brackets, or by nothing when there are none.", "quantifier": "all template argument lists", "why_tests_cant": "All lists, including empty packs.", "anchors": ["source/class.cpp: template_specialization", "source/function.cpp: template_specialization"]}
{"id": "C47", "title": "A type is accepted only if every type it mentions can be bound", "statement": "A function, constructor or field is bound only if its parameter, return or field types, through pointers, references and template arguments, mention no private, incomplete, anonymous, rvalue-reference-to-builtin or otherwise unsupported type.", "quantifier": "all types", "why_tests_cant": "Unbounded nesting of types.", "anchors": ["source/type.cpp: is_bindable", "source/class.cpp: is_bindable_raw", "source/function.cpp: is_bindable_raw"]}
{"id": "C48", "title": "Only public, non-deleted, non-skipped members are exposed", "statement": "Every member function, constructor, field or nested type emitted for a class is public (or made public by a using declaration), not deleted, and not named in a skip entry.", "quantifier": "all classes", "why_tests_cant": "All classes and access combinations.", "anchors": ["source/class.cpp: ClassBinder::bind, is_bindable", "source/class.cpp: is_callback_structure_needed"]}
{"id": "C49", "title": "A trampoline can be instantiated whenever one is emitted", "statement": "The callback structure emitted for a class overrides every pure virtual function of the class and of all its bases, so it is not abstract.", "quantifier": "all class hierarchies", "why_tests_cant": "All hierarchies.", "anchors": ["source/class.cpp: is_callback_structure_needed, is_callback_structure_constructible, bind_member_functions_for_call_back"]}
{"id": "C50", "title": "No member of a trampoline is declared twice", "statement": "Within one callback structure the overriding functions have pairwise distinct signatures and the generated return-type aliases pairwise distinct names.", "quantifier": "all class hierarchies including diamonds", "why_tests_cant": "All hierarchies.", "anchors": ["source/class.cpp: bind_member_functions_for_call_back"]}
{"id": "C51", "title": "A trampoline override forwards to the most derived implementation", "statement": "When Python does not override a virtual method, calling it through the trampoline has the same effect as calling it on the C++ class: it runs the class's own most derived implementation, and final methods are never overridden.", "quantifier": "all class hierarchies", "why_tests_cant": "All hierarchies.", "anchors": ["source/class.cpp: bind_member_functions_for_call_back"]}
{"id": "C52", "title": "Every constructor is callable from Python with every admissible number of arguments", "statement": "For each public non-deleted bindable constructor with n parameters and first default at d, exactly the arities d..n are registered.", "quantifier": "all constructors", "why_tests_cant": "Unbounded parameter lists.", "anchors": ["source/class.cpp: bind_constructor"]}
{"id": "C53", "title": "Enumerations are reproduced completely", "statement": "The binding of an enum has one value entry per enumerator, in order, with its own name and value; exports its values exactly when unscoped.", "quantifier": "all enums", "why_tests_cant": "Unbounded lists of enumerators.", "anchors": ["source/enum.cpp: bind_enum"]}
{"id": "C54", "title": "Include closure visits every mentioned type once per improvement and terminates", "statement": "Collecting includes for a declaration terminates on every (also cyclic) type graph and collects the header of every declaration reachable through mentioned types within the depth rules.", "quantifier": "all type graphs", "why_tests_cant": "Termination and coverage over all graphs.", "anchors": ["source/binder.cpp: IncludeSet::add_decl", "source/type.cpp: add_relevant_includes", "source/class.cpp: add_relevant_includes", "source/function.cpp: add_relevant_includes"]}
{"id": "C55", "title": "Name lookups are memoised transparently", "statement": "Asking for a name or decision twice gives the same answer as computing it afresh, for every interleaving of queries.", "quantifier": "all query histories", "why_tests_cant": "All histories of cache operations.", "anchors": ["source/function.cpp, class.cpp, enum.cpp, type.cpp: static caches"]}
{"id": "C56", "title": "Normalising a type name is stable", "statement": "Normalising a name that is already normal leaves it unchanged.", "quantifier": "all names", "why_tests_cant": "All strings.", "anchors": ["source/type.cpp: standard_name, simplify_std_class_name"]}
{"id": "C57", "title": "Type requests reach every class mentioned", "statement": "Binding a declaration requests every class reachable from its parameter, return, field and base types through pointers, references and template arguments.", "quantifier": "all types", "why_tests_cant": "Unbounded nesting.", "anchors": ["source/type.cpp: request_bindings", "source/class.cpp: request_bindings", "source/function.cpp: request_bindings"]}
{"id": "C58", "title": "Prefix and suffix tests are exact", "statement": "begins_with(s, p) answers yes exactly when s = p + rest for some rest, and ends_with(s, p) exactly when s = rest + p, also when p is longer than s or empty.", "quantifier": "all pairs of strings", "why_tests_cant": "All strings, including the out-of-range compare of a suffix longer than the string.", "anchors": ["source/util.cpp: begins_with, ends_with"]}
{"id": "C59", "title": "A trampoline override has a compatible exception specification", "statement": "The overriding function in a callback structure promises not to throw exactly if the C++ method it overrides does, so the override is accepted by the compiler and exceptions pass through it as they pass through the method.", "quantifier": "all methods and all exception specifications", "why_tests_cant": "The specification is chosen by bit tests on an enumeration with a dozen values whose numbering belongs to the compiler library; tests only contain a few of them.", "anchors": ["source/class.cpp: bind_member_functions_for_call_back"]}
{"id": "C60", "title": "Constructor keywords match parameters", "statement": "Every constructor statement names its parameters, in order, so that each constructor can be called with keyword arguments.", "quantifier": "all constructors of all classes", "why_tests_cant": "Unbounded parameter lists; the code has four textual forms for a constructor.", "anchors": ["source/class.cpp: bind_constructor"]}
{"id": "C61", "title": "The class statement lists the public bases that are bound", "statement": "The class_ statement of a class names the class, its callback structure if there is one, and exactly its public direct bases that are bindable and not skipped, in the order of declaration; each named base is requested and is a dependency of the class, and a nested class is put into its enclosing class.", "quantifier": "all classes and base lists", "why_tests_cant": "Unbounded base lists, all configurations.", "anchors": ["source/class.cpp: maybe_base_classes, ClassBinder::bind"]}
{"id": "C62", "title": "A field is read-only exactly if it cannot be assigned", "statement": "A field is bound with def_readonly if it is const or its class has no accessible copy assignment, and with def_readwrite otherwise.", "quantifier": "all fields and types", "why_tests_cant": "All types, including typedefs.", "anchors": ["source/class.cpp: is_field_assignable, bind_data_member"]}
{"id": "C63", "title": "A class gets __str__ exactly if it can be printed", "statement": "A class gets a __str__ method that uses operator<< exactly if a free operator<<(std::ostream &, const C &) has been seen and no entry skips C::__str__.", "quantifier": "all classes, configurations and sets of operators", "why_tests_cant": "The lookup works on printed types; all histories of added operators.", "anchors": ["source/class.cpp: ClassBinder::bind_repr", "source/context.cpp: Context::global_insertion_operator, Context::add_insertion_operator"]}
{"id": "C64", "title": "Nested classes are bound once, inside their class", "statement": "Every public nested class that can be bound is bound exactly once, in order of declaration, inside the block of its enclosing class, also if it is declared before it is defined.", "quantifier": "all classes and nesting depths", "why_tests_cant": "Unbounded nesting, repeated declarations.", "anchors": ["source/class.cpp: ClassBinder::for_public_nested_classes, ClassBinder::bind_nested_classes"]}
{"id": "C65", "title": "Python never owns objects it cannot destroy", "statement": "A class whose destructor is not public is held by a plain pointer; every other class is held by the configured holder type.", "quantifier": "all classes and configurations", "why_tests_cant": "All combinations of destructor access, inheritance and configuration.", "anchors": ["source/class.cpp: ClassBinder::bind, is_inherited_from_enable_shared_from_this"]}
{"id": "C66", "title": "Include lines name public headers in angle brackets", "statement": "For a declaration the generated file gets at most one include line. It names a header in angle brackets, never one that can only be found with quotes and never a known internal header of the standard library; for a declaration that comes from `#include <h>`, and is not one of the standard library's with a header of its own, it is `<h>`.", "quantifier": "all declarations, names and include directives", "why_tests_cant": "All names and all headers, and every entry of three tables.", "anchors": ["source/type.cpp: relevant_include, add_relevant_include_for_decl"]}
{"id": "C67", "title": "The headers of all types in a bound signature are included", "statement": "A generated file includes, for every function, member function and constructor bound in it, the header of every class and enumeration its signature mentions directly, by pointer or by reference, together with the header of the bound class itself.", "quantifier": "all programs, classes, nesting depths and files with several bound objects", "why_tests_cant": "Graphs of declarations of any shape; the shared visited set makes the result depend on the history within the file.", "anchors": ["source/class.cpp: ClassBinder::add_relevant_includes, add_relevant_includes", "source/function.cpp: add_relevant_includes", "source/binder.cpp: IncludeSet"]}
{"id": "C68", "title": "A Python override of a virtual method is found and called", "statement": "Every function of a callback structure first looks for a Python override under the name the method is bound under and the class that is registered, calls it with all arguments in order and returns its result; only without an override does it call the C++ implementation, or report the call of a pure virtual function.", "quantifier": "all classes, hierarchies and virtual methods without a custom trampoline", "why_tests_cant": "All signatures and hierarchies.", "anchors": ["source/class.cpp: call_back_function_body_template, bind_member_functions_for_call_back"]}
{"id": "C69", "title": "A run binds exactly what is asked for and what that needs, once", "statement": "After a run that returns, the generated sources contain the binding of exactly those declarations of the translation unit that the configuration asks for and that can be bound, and of the classes and enumerations that these need, directly or through others; each once. The root module calls the function of every generated source, in order, and no other. No other file is changed.", "quantifier": "all translation units, configurations, options and earlier contents of the output directory", "why_tests_cant": "The set is a fixed point over a graph of declarations of any shape; sorting and splitting into files must neither lose nor repeat an element.", "anchors": ["source/main.cpp: BinderVisitor, BinderASTConsumer", "source/context.cpp: Context::add, bind, sort_binders, generate"]}
{"id": "C70", "title": "A run ends, with one result", "statement": "For every program whose base classes, template arguments and nested classes have no cycles, and every limit on the length of a file, a run ends, and its result depends only on the program, the configuration, the options and the files.", "quantifier": "all translation units, configurations and options", "why_tests_cant": "Termination of three nested loops on all inputs.", "anchors": ["source/main.cpp: BinderASTConsumer", "source/context.cpp: Context::bind, sort_binders, generate"]}
{"id": "C71", "title": "The error about a missing binder means a missing declaration", "statement": "A run ends with the error 'Could not find binder for type' exactly if a class to be bound has a base class that could be bound but is not declared in the translation unit.", "quantifier": "all translation units and configurations", "why_tests_cant": "Quantifies over all class hierarchies and orders of declarations.", "anchors": ["source/context.cpp: Context::sort_binders", "source/class.cpp: ClassBinder::maybe_base_classes"]}
{"id": "C72", "title": "A failed run leaves the files of the last run alone", "statement": "A run that ends with an error (contradictory requests, a missing base class, an output file that cannot be written) changes no file it had not to write anyway; one that fails before anything is generated changes nothing.", "quantifier": "all translation units, configurations, options and earlier contents of the output directory, and all points of failure", "why_tests_cant": "Every point at which the run can fail.", "anchors": ["source/context.cpp: Context::generate, sort_binders", "source/util.cpp: update_source_file"]}
{"id": "C73", "title": "Several input files", "statement": "If several input files are given, the module contains the bindings for all of them.", "quantifier": "all lists of input files", "why_tests_cant": "Every number of input files, with any contents.", "anchors": ["source/main.cpp: BinderFrontendAction, BinderASTConsumer, main"]}
{"id": "C74", "title": "Repeating a run changes nothing", "statement": "Running again with the same input, configuration and options succeeds, leaves the content of every file as it is, and does not touch any generated source (so that nothing but the root module is compiled again).", "quantifier": "all translation units, configurations and options", "why_tests_cant": "All outputs, for all programs.", "anchors": ["source/context.cpp: Context::generate", "source/util.cpp: update_source_file"]}
{"id": "C75", "title": "The module can be imported: bases are registered first", "statement": "When the generated module is imported, every class statement that names base classes is executed after the statements for these base classes, also for nested classes.", "quantifier": "all class hierarchies, orders of declarations and ways of splitting the output into files", "why_tests_cant": "Quantifies over all hierarchies and declaration orders; depends on collection, sorting and file splitting together.", "anchors": ["source/context.cpp: Context::sort_binders, generate", "source/class.cpp: ClassBinder::bind, maybe_base_classes"]}
{"id": "C76", "title": "Every source includes the headers its bindings need", "statement": "Each generated source begins with an include line for the header of every declaration that a binding in it asks for, except headers the user excluded. It has no other include lines than these, those the user asked for, and fixed ones.", "quantifier": "all translation units, configurations and ways of splitting the output into files", "why_tests_cant": "Graphs of declarations of any shape.", "anchors": ["source/context.cpp: Context::generate, generate_include_directives", "source/class.cpp, source/function.cpp, source/enum.cpp: add_relevant_includes"]}
{"id": "C77", "title": "Short names of standard containers are right", "statement": "The short name that the generator uses for a class of namespace std is computed in finite time for every name, does not change when it is computed again, and differs from the full name only in that default template arguments of standard containers are left out, so that it names the same type.", "quantifier": "all type names, with any nesting of template arguments", "why_tests_cant": "Type names nest without bound; the regular expressions are applied again and again, with back references that match in more than one way.", "anchors": ["source/type.cpp: simplify_std_class_name_raw, simplify_std_class_name"]}
{"id": "C78", "title": "Generated files are lexically well-formed C++", "statement": "Every source file that a run writes is lexically well-formed C++ text, whatever the comments of the program say: every string and character literal ends on its line, every comment ends, and brackets match.", "quantifier": "all programs, configurations, options and file systems for which a run returns", "why_tests_cant": "Names, comments, signatures, include lines and configuration texts are copied into string literals, comments and code; a character that ends a literal can stand anywhere in any of them.", "anchors": ["source/function.cpp: bind_function, FunctionBinder::bind", "source/class.cpp: ClassBinder::bind", "source/enum.cpp: bind_enum", "source/util.cpp: generate_documentation_string_for_declaration", "source/context.cpp: Context::generate"]}
{"id": "C79", "title": "What is bound does not depend on the order of declarations", "statement": "Two runs over the same declarations, met in any two orders and any number of times, bind the same names, and either both or neither throw because an entity is asked for and forbidden at once, provided that declarations of the same name are declarations of the same thing.", "quantifier": "all translation units, orders and repetitions of their declarations, configurations and options", "why_tests_cant": "Any permutation of any number of declarations; the worklist of dependencies starts from a different place in each.", "anchors": ["source/context.cpp: Context::add, Context::bind, Context::request_bindings", "source/main.cpp: BinderVisitor"]}
{"id": "C80", "title": "Options --bind and --skip are configuration entries", "statement": "Starting binder with --bind n or --skip n has the same effect, including on errors, as starting it without these options and with the line +namespace n or -namespace n at the head of the configuration file, for names without spaces and line ends.", "quantifier": "all lists of options, all configuration files, all states left by earlier translation units", "why_tests_cant": "Any number of options before any configuration file.", "anchors": ["source/main.cpp: BinderVisitor::BinderVisitor", "source/config.cpp: Config::read"]}
{"id": "C81", "title": "The generated module can be imported", "statement": "Importing the compiled module makes exactly the pybind11 calls for the bound declarations, in the order of the sources, and none of them fails: scopes and bases exist before they are used, no type is registered twice, and no name is given to things that cannot share it.", "quantifier": "all translation units, options and file systems for which a run returns", "why_tests_cant": "The order of the calls is the result of sorting; every pair of declarations can clash, at any distance.", "anchors": ["source/context.cpp: main_module_header, Context::generate, Context::sort_binders", "source/class.cpp: ClassBinder::bind, bind_nested_classes", "source/function.cpp: bind_function", "source/enum.cpp: bind_enum"]}
{"id": "C82", "title": "Classes made by the shipped vector and map binders have the documented names", "statement": "A std::vector or std::map bound through binder::vector_binder or binder::map_binder is available in Python as vector_<element> or map_<key>_<value>; default comparators and allocators are not part of the name; different types have different names, and every name is an identifier.", "quantifier": "all instances of std::vector and std::map, all configurations that assign the shipped binders", "why_tests_cant": "The name is put together at import from mangled texts of arbitrary type names; whether a default argument is recognised, or two names agree, depends on every character of them.", "anchors": ["source/stl_binders.hpp: vector_binder, map_binder", "source/class.cpp: ClassBinder::bind_with", "source/util.cpp: mangle_type_name, fix_boolean_types"]}
{"id": "C83", "title": "Options for the form of the output do not change the module", "statement": "Two runs for the same program and configuration that return, with whatever values of --root-module, --prefix, --flat, --single-file, --max-file-size and --trace, and whatever files left by earlier runs, make modules with the same submodules, whose imports run the same statements in the same order, apart from trace output; so the imports succeed or fail alike. A run that ends with the error about a missing base does so with every choice of these options.", "quantifier": "all programs, all configurations, all pairs of option values, all file systems before the runs", "why_tests_cant": "The number of files and the declarations in each are decided by a loop that depends on the length of all code generated before; a test sees one division of one program.", "anchors": ["source/context.cpp: Context::generate, Context::sort_binders", "source/options.cpp: O_root_module, O_flat, O_single_file, O_trace, O_max_file_size, O_prefix", "source/config.hpp: Config"]}
{"id": "C84", "title": "The imported module offers exactly what is bound, and Python knows the inheritance", "statement": "After a successful import every module and class has exactly the names of the bound declarations and of the namespaces in it; there is a module for every namespace with bound declarations and for those around it, and no other; issubclass between bound classes says what public inheritance in C++ says, and what a class offers its derived classes offer too.", "quantifier": "all programs, configurations and runs that return and whose module can be imported, all pairs of classes, all names", "why_tests_cant": "The names come from statements in many files that run in an order decided by sorting and division; the search order of Python depends on the whole hierarchy.", "anchors": ["source/class.cpp: ClassBinder::bind, maybe_base_classes", "source/context.cpp: Context::generate, create_all_nested_namespaces", "source/function.cpp: bind_function", "source/enum.cpp: bind_enum"]}
{"id": "C85", "title": "The options for comments change nothing but comments", "statement": "With --annotate-includes, --annotate-functions and --skip-line-number or without them, the same declarations are bound in the same order, the import has the same effect, sources for the same declarations include the same headers, and the generated functions have the same code: the texts differ in comments only.", "quantifier": "all programs and configurations, all values of the three options, all runs that return, all generated sources", "why_tests_cant": "The comments hold names and paths of the program, and a comment that swallows the rest of a line, or an option read where a decision is made, shows only for some declaration.", "anchors": ["source/options.cpp: O_annotate_includes, O_annotate_functions", "source/function.cpp: bind_function, function_qualified_name", "source/class.cpp: ClassBinder::bind, bind_constructor", "source/type.cpp: add_relevant_include_for_decl", "source/util.cpp: line_number"]}
{"id": "C86", "title": "Asking for more, or leaving out less, loses nothing", "statement": "If requests to bind (+namespace, +class, +function, +enum, --bind) are added to a configuration, or requests to skip (-namespace, -class, -function, -enum, -field, --skip) are removed from it, and the run still returns, then everything that was bound before is bound: every declaration, every name in every module and class, every module for a namespace, and every subclass relation.", "quantifier": "all programs, all configurations, all added and removed requests in any order, all output options", "why_tests_cant": "A request acts on whole families of declarations, and it acts on others through types, template arguments and bases; that none of the interactions removes a binding is a statement about all pairs of configurations.", "anchors": ["source/config.cpp: Config::read, is_namespace_binding_requested, is_namespace_skipping_requested, is_class_binding_requested, is_class_skipping_requested", "source/class.cpp: is_skipping_requested, is_binding_requested, ClassBinder::bind", "source/function.cpp: is_skipping_requested, is_binding_requested", "source/type.cpp: request_bindings", "source/context.cpp: Context::bind"]}
{"id": "C87", "title": "A run fails only for a named reason", "statement": "If no namespace is asked for and left out in the same words, the output directory is given and exists, no output file or directory is in the way of another one, and every base that the bindings name is declared, a run returns. A declaration that depends on a namespace that is asked for and left out, and about which no other entry says anything, stops the run before a file is written, and so does a missing output directory; without such a namespace every question about every function, class and enumeration has an answer.", "quantifier": "all programs, all configurations, all options with a positive file size limit, all states of the file system", "why_tests_cant": "Success is the absence of every exception and exit on every path of a whole run, for programs and directories of any size; the questions recurse through template arguments and types.", "anchors": ["source/config.cpp: Config::is_namespace_binding_requested, is_namespace_skipping_requested", "source/class.cpp: is_skipping_requested", "source/function.cpp: is_skipping_requested, is_binding_requested", "source/context.cpp: Context::bind, Context::generate, sort_binders", "source/util.cpp: update_source_file"]}
{"id": "C88", "title": "Including another header loses nothing", "statement": "If declarations are added to a program, anywhere in it, and the configuration stays, a run that returns binds everything that was bound before: every declaration, every name in every module and class, every module for a namespace, and every subclass relation.", "quantifier": "all programs, all sets of added declarations at any positions, all configurations, all output options", "why_tests_cant": "What is bound is a fixed point over all declarations, names are deduplicated and types are looked up by name, so an added declaration could displace any other one.", "anchors": ["source/context.cpp: Context::add, Context::bind, Context::request_bindings, Context::add_insertion_operator, Context::global_insertion_operator", "source/main.cpp: BinderVisitor"]}
{"id": "C89", "title": "An interrupted run leaves old files or beginnings of new ones, and the next run repairs them", "statement": "If a run that would return, and whose output files have different names, is interrupted at any time, any number of times, every file has its old content or a beginning of the content that the complete run gives it, and files that the run does not write are as before. A run that is started then returns and leaves every file as if there had been no interruption. A process comes to its end. When the list of sources has changed, every source is complete. A run that stops because of a missing base, or with an exception, does so and leaves the same files whenever the characters it has written reach them.", "quantifier": "all programs, all configurations, all output options, all states of the file system, all points of interruption including those where output streams have handed over only part of their text, any number of interruptions", "why_tests_cant": "There is a point of interruption after every character that reaches a file, and interrupted runs can be repeated without bound; a test stops the program at a few points.", "anchors": ["source/context.cpp: Context::generate", "source/util.cpp: update_source_file"]}
{"id": "C90", "title": "Runs at the same time do not disturb each other", "statement": "Any number of runs that start on the same files, each of which would return if made alone and has output files with different names, and no two of which write the same file, can be interleaved in any way: none fails, each that finishes leaves its files as if it had been made alone, at any time every file is old or a beginning of what its run writes, and no run can be kept from finishing. With --flat and one output directory it suffices that no module name is another one, or another one followed by _ and a number.", "quantifier": "all families of programs, configurations and options, all states of the file system, all interleavings of their operations and of the characters they write, including those where some runs are interrupted", "why_tests_cant": "Interleavings of two or more processes at every character cannot be enumerated; a test sees one schedule.", "anchors": ["source/context.cpp: Context::generate", "source/util.cpp: update_source_file"]}
{"id": "C91", "title": "A Python call reaches the C++ function with exactly the arguments that were given", "statement": "Let functions of one scope (or constructors of one class) be bound under one Python name. If a Python call with arguments by position and by keyword reaches one of them, that C++ function is called, on the object of the call if it is a method, with exactly the arguments of the call, each as the parameter of the position or name for which it was given, and only parameters with default arguments are left out. If an argument had to be converted, no other function of the name takes the arguments as they are. Every call that gives arguments of convertible types to the parameters of one of the functions, leaving out only ones with default arguments, is accepted. Excluded: keyword self for methods, leaving out arguments of functions that take functions, template arguments in calls with fewer arguments, keywords for classes with callbacks.", "quantifier": "all functions, methods and constructors, all sets of overloads in any order, all Python calls with any arguments by position and by keyword in any order, all relations of values and types", "why_tests_cant": "The number of overloads, of parameters with default arguments, and of the ways to give arguments by position and keyword is unbounded; a test makes a few calls.", "anchors": ["source/function.cpp: bind_function, function_arguments", "source/class.cpp: bind_constructor"]}
{"id": "C92", "title": "Documentation comments reach Python complete and in order", "statement": "The documentation string of a bound class, enumeration or function is, as C++ reads the literal, the text of its documentation comment without blanks at the beginning: all pieces of text of the comment, complete and in order, with nothing but line ends inserted between them; pieces of different lines are separated, pieces of one line of a paragraph stay together. For functions the C++ type follows, in exactly one of the def statements. Excluded: the names and arguments of documentation commands, functions bound by a lambda for all arguments, constructors.", "quantifier": "all comments (trees of any depth and width), all classes, enumerations, functions and methods", "why_tests_cant": "Comments are trees of unbounded depth and contain any characters at any lines; a test has a few comments.", "anchors": ["source/util.cpp: get_text, generate_documentation_string_for_declaration", "source/function.cpp: bind_function", "source/class.cpp: ClassBinder::bind", "source/enum.cpp: bind_enum"]}
{"id": "C93", "title": "A call in Python reaches the bound functions of that name in that scope", "statement": "After a complete run, compilation and import, a Python name in a namespace's module (or in a class) that only functions have stands for one Python function, made of exactly the `def` statements of the functions that were bound for that namespace (class) under that name. For a namespace these are the free functions the run binds there with this Python name; for a class its bound methods. A call that succeeds runs one of these C++ functions on exactly the arguments given, each as the parameter it was given for, with only defaulted parameters left out, and prefers an overload that needs no conversion; every call that suits one of them (C91 lists the exceptions) is accepted. A method is found for objects of Python subclasses if no other class among them has the name.", "quantifier": "all programs, configurations and options whose run returns and whose module can be imported; all scopes and names; all calls", "why_tests_cant": "It composes the whole run, the import and overload resolution: the functions with a name may be spread over any number of declarations and files in any order, and calls are unbounded in arguments and keywords.", "anchors": ["source/context.cpp: Context::bind, Context::generate", "source/function.cpp: bind_function, python_function_name", "source/class.cpp: ClassBinder::bind, binding_public_member_functions"]}
{"id": "C94", "title": "Objects made from Python are made by the bound constructors, with the given arguments and of the right class", "statement": "After a complete run, compilation and import, Python can create objects of a bound C++ class exactly if one of the class's constructors is bound. Creating an object is about the statements for these constructors only. A call that succeeds runs one of these constructors on exactly the arguments given, each as the parameter it was given for, with only defaulted parameters left out, and prefers a constructor that needs no conversion; every call that suits a bound constructor (keywords only where C60 provides them) is accepted. The C++ object is of the callback structure if the class is abstract or the Python object belongs to a class derived in Python (so that overriding works), and of the C++ class itself otherwise. Copies are objects of the same class as for other constructors.", "quantifier": "all programs, configurations and options whose run returns and whose module can be imported; all bound classes; all calls of the class; objects of the class itself and of classes derived in Python", "why_tests_cant": "The constructors of a class are any number, own, inherited and implicit, with any parameters and default arguments; calls are unbounded, and which C++ class is made depends on abstractness, callbacks and the Python class at once.", "anchors": ["source/class.cpp: bind_constructor, bind_default_constructor, bind_copy_constructor, ClassBinder::bind"]}
{"id": "C95", "title": "A method defined in Python takes the place of the virtual function in calls from C++", "statement": "Let a callback structure be emitted for a class, and let a virtual function of the class or of one of its public or protected bases be one that C++ code may override. If C++ code calls the function on an object of a Python class derived from the bound class, then: if the Python class defines a method under the name the function has in Python, that method is called with all arguments, in order; otherwise the C++ implementation is called with all arguments, in order; and if there is none, an exception is raised that names the function. Other functions of the hierarchy with another signature do not interfere.", "quantifier": "all class hierarchies, of any depth and with multiple inheritance; all virtual functions in them; all argument values; all Python classes (any set of methods defined in Python)", "why_tests_cant": "Hierarchies are unbounded; which function the structure overrides depends on a traversal that remembers every signature seen so far, and the arguments and Python classes range over everything.", "anchors": ["source/class.cpp: bind_member_functions_for_call_back, generate_prefix_code", "source/function.cpp: python_function_name, cpp_python_operator"]}
{"id": "C96", "title": "Python finds a member of an object in the class in which C++ finds it", "statement": "After the generated module is imported, Python searches a class and all classes it derives from, each once, and never comes to a class before one derived from it. A name that several classes of an object have is therefore found in the one that derives from all the others. If Python knows the class of an object and all bases of it, and C++ finds a name in one class because that class hides all the other declarations of it, then Python finds the name in the same class.", "quantifier": "all class hierarchies, of any depth and shape, with virtual and repeated bases; all classes in them; all names; all configurations, histories of the output folder and generated sources", "why_tests_cant": "Python linearises the hierarchy while C++ uses dominance; that the two agree has to be shown for every shape of hierarchy, not for a few diamonds.", "anchors": ["source/class.cpp: ClassBinder::bind, is_inherited_from_enable_shared_from_this", "source/context.cpp: Context::generate, Context::bind"]}
{"id": "C97", "title": "An attribute of a Python object is the data member that C++ finds", "statement": "Let a bound class have a public data member (declared in it or made public by a using declaration) that is bound. After the import, the name stands in the Python class for a property made from exactly this data member: the statement names the class and the field, and it is read-only exactly if the field cannot be assigned. Python finds this property for objects of all classes in which C++ finds this data member.", "quantifier": "all programs, classes, data members, class hierarchies and configurations; all orders in which the generated statements are executed", "why_tests_cant": "Which statement a name ends up with depends on all statements for the class, on those for the bases of template specialisations and on the order of all of them; this has to hold for every class and every hierarchy.", "anchors": ["source/class.cpp: binding_public_data_members, bind_data_member, binding_template_bases, ClassBinder::bind_nested_classes"]}
{"id": "C98", "title": "Names that Python can spell", "statement": "Every name in the imported module (modules for namespaces, classes, functions, enumerations and exported enumerators, methods, data members, operators) is an identifier of Python and no keyword, so that a program can write `m.A.f`, if the names in the C++ program are words of Python too and the template arguments in names of classes have no other characters than those of identifiers, blanks, `<`, `>`, `,`, `:`, `*` and `&`.", "quantifier": "All translation units, configurations and options, all modules that can be imported, all scopes and names in them", "why_tests_cant": "The names come from every kind of declaration, through the mangling of template names, the table of operators, the normalisation of names of the standard library and the prefix for static functions; a test sees a handful of names.", "anchors": ["source/util.cpp: mangle_type_name", "source/class.cpp: python_class_name, class_name, template_specialization", "source/function.cpp: python_function_name, cpp_python_operator", "source/context.cpp: mangle_namespace_name", "source/type.cpp: standard_name, simplify_std_class_name"]}
{"id": "C99", "title": "A dotted name in Python is the C++ thing of that name", "statement": "In the imported module the name of a bound class, enumeration or function, written with dots instead of `::` (and with the Python names of classes and namespaces), is the Python class for just this class or enumeration, or a function. An enumerator is an attribute of the Python class of its enumeration; it is also one of the scope of the enumeration if and only if the enumeration is not declared with `class`. The module has a submodule for every namespace of a bound declaration and for the namespaces around it, and no others.", "quantifier": "All translation units, configurations and options, all runs that succeed and modules that can be imported, all bound classes (members of classes at any depth too), enumerations, enumerators and functions, all nestings of namespaces", "why_tests_cant": "What a name stands for is decided by the last of all calls that use the name, in whatever file it is, and the path goes through namespaces and classes of any depth; tests look at a few paths in a few modules.", "anchors": ["source/enum.cpp: bind_enum", "source/class.cpp: ClassBinder::bind, bind_nested_classes", "source/context.cpp: Context::generate, sub_modules", "source/util.cpp: base_namespace, last_namespace"]}
{"id": "C100", "title": "Expressions with operators do in Python what they do in C++", "statement": "For an object `x` of a bound class, a Python expression with an operator (`-x`, `x + y`, `x += y`, `x == y`, `x[i]`, `x(...)`, ...) calls the member operators of C++ with the same symbol and the same number of operands, of the class in which C++ finds them; only such operators, and all of them as overloads. Without such an operator it raises TypeError.", "quantifier": "All translation units, configurations and options, all runs that succeed and modules that can be imported, all classes with whole hierarchies of bases, all operators that Python and C++ share, all classes of the right operand", "why_tests_cant": "Which method Python calls depends on both operands, on the whole hierarchy of classes and on everything else that is bound under the special names; tests try a few operators of a few classes.", "anchors": ["source/function.cpp: cpp_python_operator, python_function_name, is_bindable", "source/class.cpp: ClassBinder::bind, bind_member_functions_for_template_bases"]}
{"id": "C101", "title": "Objects that Python and C++ share are destroyed once, and not while Python refers to them", "statement": "Whatever sequence of calls and deletions Python makes, and whatever C++ makes and destroys meanwhile: no object that bound functions return by pointer or reference is destroyed twice, no part of an object is destroyed without it, no Python object outlives what it stands for, and no object that was given away stays forever - exactly if the configured policies fit what the functions promise about their results.", "quantifier": "All configurations, all sets of bound functions, all promises of the functions (object given away, part of the object called, object of C++), all histories of constructor calls, function calls, attribute accesses and deletions in Python, and of objects made and destroyed in C++", "why_tests_cant": "Double destruction and dangling references show only for particular orders of calls and deletions, and often not even then; the number of histories is unbounded.", "anchors": ["source/function.cpp: bind_function", "source/config.hpp: Config::default_static_pointer_return_value_policy, Config::default_member_pointer_return_value_policy, Config::default_member_lvalue_reference_return_value_policy", "source/config.cpp: Config::read", "documentation/config.rst"]}
{"id": "C102", "title": "A Python call that leaves out default arguments calls the bound function", "statement": "For every bound function with default arguments, the generated code for calls with fewer arguments compiles, and calls this function and no other one of the same name.", "quantifier": "All functions that can be bound, all numbers of arguments that C++ allows, all sets of other functions with the same name, all conversions between types", "why_tests_cant": "The generated call is by name, so C++ chooses among all functions of that name; whether it chooses the right one depends on every combination of overloads, parameter types, constness and default arguments.", "anchors": ["source/function.cpp: bind_function, function_arguments_for_lambda, is_bindable", "source/type.cpp: is_bindable"]}
{"id": "C103", "title": "A virtual function that Python does not override runs its C++ implementation", "statement": "For every virtual function that the generated callback structure of a class overrides, the code for the case that Python does not override it compiles, and calls the C++ implementation it stands for and no other function of the same name.", "quantifier": "All programs, all virtual functions that are overridden, all sets of other functions with the same name, all conversions between types", "why_tests_cant": "The generated call is by name, so C++ chooses among all functions of that name; whether it chooses the right one depends on every combination of overloads, parameter types, constness and default arguments.", "anchors": ["source/class.cpp: bind_member_functions_for_call_back", "source/function.cpp: function_arguments_for_py_overload"]}
{"id": "C104", "title": "The address in a binding is the address of the bound function", "statement": "For every bound function and whatever other functions have the same name, the address expression that the generated code passes to pybind11 for calls with all arguments is valid C++ and stands for this function and no other one.", "quantifier": "All programs, all functions, all sets of functions with the same name that C++ allows", "why_tests_cant": "The address is given by a name and a cast; which function C++ takes depends on every combination of parameter types and qualifiers of the functions that share the name.", "anchors": ["source/function.cpp: function_pointer_type", "source/function.cpp: bind_function", "source/type.cpp: is_bindable"]}
{"id": "C105", "title": "The generated code takes the address of data members only where C++ allows it", "statement": "For every data member that is bound, the generated statement contains the address of this member of its class, the member is public there, has a name, and is neither a reference nor a bit-field.", "quantifier": "All programs, all classes, all data members", "why_tests_cant": "The generator must leave out every kind of data member without an address, for every type, access path and template base.", "anchors": ["source/class.cpp: bind_data_member", "source/class.cpp: is_bindable(FieldDecl)", "source/class.cpp: binding_public_data_members"]}
{"id": "C106", "title": "The functions of a callback structure override the virtual functions they stand for", "statement": "Every member function that a generated callback structure declares is valid C++ and overrides the virtual function it was made for: it has the same name, parameter types and qualifiers.", "quantifier": "All programs, all classes with callback structures, all virtual functions", "why_tests_cant": "The declaration is put together from the text of types and a few flags; that it overrides the function depends on all types and qualifiers C++ has.", "anchors": ["source/class.cpp: bind_member_functions_for_call_back", "source/function.cpp: function_arguments_for_py_overload"]}
{"id": "C107", "title": "Reserved names and types that Python has already are never bound", "statement": "A run never binds a function, class or enumeration whose name is reserved for the implementation of the standard library (std::_...), nor one that Python has already: types the user lists, the types the tool knows, containers that pybind11 converts, and the classes with which pybind11 stands for Python objects. Classes nested in bound classes are no exception.", "quantifier": "All translation units, configurations and successful runs, all declarations bound and all classes registered", "why_tests_cant": "Which declarations are reached depends on all types mentioned in all headers; tests list a few types.", "anchors": ["source/type.cpp: is_python_builtin, is_banned_symbol", "source/class.cpp: is_bindable_raw", "source/function.cpp: is_bindable", "source/enum.cpp: EnumBinder::bindable"]}
{"id": "C108", "title": "Declarations of the standard library bring a public header that provides them", "statement": "When a binding needs a declaration of the standard library, the generated file includes the public header in which the standard declares its name, or, if it was found in an internal header of the library, a public header that includes the internal one.", "quantifier": "All programs, options, and ways in which the declaration was found; the names and internal headers of the GNU and LLVM libraries that the tool knows", "why_tests_cant": "The tests use a few containers, and a missing header is hidden when another include provides it by chance.", "anchors": ["source/type.cpp: add_relevant_include_for_decl"]}
{"id": "C109", "title": "A Python call chooses the same overload as the C++ call", "statement": "If several functions with one name are bound, a Python call with objects of bound classes reaches the function that C++ overload resolution chooses for variables of these classes.", "quantifier": "All programs, class hierarchies, sets of overloads in any order, and calls by position with objects of classes", "why_tests_cant": "It is a statement about all orders of declarations and all class hierarchies; the tests call no overloads whose parameters are related by inheritance.", "anchors": ["source/class.cpp: binding_public_member_functions, is_const_overload", "source/function.cpp: bind_function"]}
{"id": "C110", "title": "Everything that is bound has a name in C++", "statement": "The generated code binds no declaration that has no name or is in an anonymous namespace, and writes no such name as a type.", "quantifier": "All translation units, options, and names as clang prints them; all functions, classes, nested classes and enumerations", "why_tests_cant": "Headers with anonymous namespaces are rare in tests, and each kind of declaration has its own check.", "anchors": ["source/function.cpp: is_bindable_raw", "source/class.cpp: is_bindable_raw", "source/enum.cpp: is_bindable"]}
{"id": "C111", "title": "The holders of Python objects fit together", "statement": "A class and its bases have holders that pybind11 accepts next to each other when the module is imported, and a bound function that takes a smart pointer to a class can be given the objects of that class and of every class derived from it: their holders are such smart pointers.", "quantifier": "All class hierarchies, destructors, configured holder types and functions with smart pointer parameters", "why_tests_cant": "Whether two holders fit depends on the destructors of both classes and on the configuration; a holder that does not fit is read as another type, which compiles and may even seem to work.", "anchors": ["source/class.cpp: ClassBinder::bind (maybe_holder_type), is_inherited_from_enable_shared_from_this", "source/config.cpp: custom_shared", "source/context.cpp: PYBIND11_DECLARE_HOLDER_TYPE", "source/stl_binders.hpp: vector_binder, map_binder (holder_type)"]}
{"id": "C112", "title": "With old versions of clang, the value of every enumerator is written under a name that denotes it", "statement": "When Binder is built with LLVM 5 or earlier, the qualified name it writes as the value of an enumerator is a C++ name of that enumerator: it goes through every context that has to be named, and through no other.", "quantifier": "All enumerators and all nestings of namespaces, classes, scoped and unscoped enumerations and extern \"C\" blocks, of any depth", "why_tests_cant": "The name is put together by hand, from contexts that can be nested in any way; tests have enumerations in a few plain contexts only.", "anchors": ["source/enum.cpp: getQualifiedNameAsStringLLVM5Fix, bind_enum"]}
{"id": "C113", "title": "A custom trampoline that the configuration names is called with everything it needs", "statement": "With +trampoline_member_function_binder n::A::f g, every callback structure that overrides the virtual function f of n::A returns what g returns for the object, the name of its class, the name of the function and all arguments, in order; g is instantiated with the class and with the type of the object. Virtual functions for which no such line is in the configuration are not affected.", "quantifier": "All class hierarchies, virtual functions, numbers of parameters, configuration files and functions named in them", "why_tests_cant": "The two tests call one custom trampoline each, for a class without derived classes.", "anchors": ["source/class.cpp: bind_member_functions_for_call_back (custom_function_info)", "source/config.cpp: is_custom_trampoline_function_requested", "documentation/config.rst: trampoline_member_function_binder"]}
{"id": "C114", "title": "Python code runs only with the interpreter lock, and the default call guard releases it for C++ code", "statement": "Whatever a thread does with a generated module, Python code in it runs only while the thread holds the lock of the interpreter, also if C++ code that released it, or a thread of C++, calls virtual functions that Python overrides. With +default_call_guard pybind11::gil_scoped_release the C++ code of the bound functions runs without the lock; without it, with the lock.", "quantifier": "All programs, classes and virtual functions, and all threads: trees of calls between Python and C++ of any depth and breadth, with any call guards", "why_tests_cant": "A missing lock shows only under a scheduling in which another thread runs Python code at the same moment; calls nest in unboundedly many ways.", "anchors": ["source/class.cpp: call_back_function_body_template, bind_member_functions_for_call_back", "source/function.cpp: bind_function (call_guard)", "documentation/config.rst: default_call_guard"]}
{"id": "C115", "title": "User-defined literals are bound under a name that can be written in Python", "statement": "The operator of a user-defined literal, operator\"\"_km, is bound by a statement that C++ reads as intended although the name has quotation marks: the function is called operator_km in Python, its documentation is the comment and the C++ type, and the address is that of the operator. No other function gets the same name.", "quantifier": "All functions that are operators of user-defined literals, with any suffix, namespace, parameters, result and comment, and all configurations", "why_tests_cant": "None of the tests has a user-defined literal; that the text is valid depends on how C++ joins string literals, for every suffix, type and comment.", "anchors": ["source/function.cpp: bind_function, python_function_name, is_bindable(FunctionDecl)"]}
{"id": "C116", "title": "Types that are left to pybind11 come with the header that converts them", "statement": "A type that gets no Python class because pybind11 can convert it (strings, pairs, tuples, smart pointers, Python objects, with --include-pybind11-stl the containers, std::function, std::complex) is converted when a bound function is called: every generated source includes the header of pybind11 that has the conversion. About types on which the configuration is silent: they are left to pybind11 only if the header is included.", "quantifier": "All programs, configurations and options, all generated sources, and all types that pybind11 converts", "why_tests_cant": "Without the header the sources compile, and the call fails only when it is made; the tests compare text. Which sources a run writes and which types are left depends on program and configuration.", "anchors": ["source/type.cpp: is_python_builtin (known_builtin, stl_builtin)", "source/config.cpp: Config::includes_code", "source/context.cpp: Context::generate (module_header)", "source/options.cpp: O_include_pybind11_stl"]}
{"id": "C117", "title": "A type has a Python class or is converted, not both", "statement": "If a run binds a class for a type that pybind11 can also convert (a standard container), the generated sources do not include the header with the conversion, so that functions take and return objects of the class and not converted copies. The user gets both only by asking for both.", "quantifier": "All programs, configurations and options, all generated sources, and all bound classes whose type pybind11 can convert", "why_tests_cant": "Sources with both compile and can be imported; the class is just never used by the functions. Which classes are bound and which headers are included depends on program, configuration and options.", "anchors": ["source/type.cpp: is_python_builtin (known_builtin, stl_builtin)", "source/config.cpp: Config::includes_code", "source/context.cpp: Context::generate (module_header), generate_include_directives", "source/options.cpp: O_include_pybind11_stl"]}
{"id": "C118", "title": "A lambda in a binding returns the type that the function returns", "statement": "Where a binding contains a lambda (for calls that leave default arguments out, and where no address can be taken), the type after the arrow is the type that the C++ function returns, written so that compilers do not take it and the brace behind it for the definition of a type.", "quantifier": "All functions, numbers of arguments, and names of types with or without const and a word for the kind of type", "why_tests_cant": "There are as many types as programs, and which words clang writes before a name depends on the type; the tests have some.", "anchors": ["source/function.cpp: bind_function (return_type, name_map)"]}
{"id": "C119", "title": "The name that binder writes for a type names that type", "statement": "The normalised name of a type, which stands in comments, bindings and configuration look-ups, is another way to write the name that the compiler prints: it names the same type.", "quantifier": "All names of types, of any nesting", "why_tests_cant": "The names of types have no bound on length or nesting, and the replacements act on their text one after another, each on the result of those before.", "anchors": ["source/type.cpp: standard_name_raw, simplify_std_class_name", "source/util.cpp: fix_boolean_types"]}
{"id": "C120", "title": "Vectors in Python behave as the docstrings of the shipped binder say", "statement": "The methods that binder::vector_binder adds to the Python class of a std::vector (empty, max_size, reserve, capacity, shrink_to_fit, clear, swap) can be called and do what std::vector's functions of these names do: clear removes all elements, swap exchanges those of two vectors, no other changes any; the answers fit the elements; reserve fails exactly beyond max_size.", "quantifier": "All histories of calls on any number of vectors, all arguments, all implementations of std::vector that follow the standard", "why_tests_cant": "The histories, the contents and the amounts of memory that an implementation chooses to allocate are unbounded.", "anchors": ["source/stl_binders.hpp: vector_binder"]}
{"id": "C121", "title": "Every binding in the sources says which declaration it is for and where it is", "statement": "In the generated sources the binding of every function, class and enumeration begins with a comment that has its name (functions: with the types of the parameters), the header and the line in which it is declared; the line is left out exactly if the user asked for that. With --annotate-functions the signature of the function follows in a second comment.", "quantifier": "All translation units, configurations and runs that succeed; all declarations bound whose name, header and line have no line break", "why_tests_cant": "Names, headers and types are unbounded; the comment is built in four places of the code, with and without binders of the user.", "anchors": ["source/function.cpp: FunctionBinder::bind, bind_function", "source/class.cpp: ClassBinder::bind, bind_with", "source/enum.cpp: EnumBinder::bind", "source/util.cpp: line_number"]}
{"id": "C122", "title": "The functions that the user names for a class are called in its binding", "statement": "With +add_on_binder n::A f the binding of n::A, also where it is nested in another class, has a line that calls f with the Python class. With +binder n::A f the binding of n::A is the call of f with the module of the namespace and the names of the template arguments, and nothing else. Classes are found by their normalised names.", "quantifier": "All translation units, configurations and runs that succeed; all classes registered; all functions named by the user without a line break", "why_tests_cant": "The nesting of classes, the names and the template arguments are unbounded.", "anchors": ["source/class.cpp: ClassBinder::bind, bind_with", "source/config.cpp: Config::read"]}
