import Verif.Model.Class
import Verif.Basic.TyEq

/-!
# Model of the collection of include files: `source/type.cpp`, `source/class.cpp`, `source/function.cpp`, `source/enum.cpp`,
`source/binder.cpp`

`add_relevant_includes` walks the graph of declarations, which may be cyclic: `IncludeSet::add_decl` decides which declarations are visited
again. The walk is modelled with fuel; `none` means that the fuel was not enough. Theorem `C54_terminates` shows that some fuel is enough.
-/

namespace Binder

open Cxx

/-- `type_map`, type.cpp:113-182. Simplification: the hash table is a list, of which the first entry counts (`insert` keeps the first). -/
def includeTypeMap : List (Str × Str) :=
  [(c!"std::move_backward", c!"<algorithm>"),
   (c!"std::iter_swap", c!"<algorithm>"),
   (c!"std::min", c!"<algorithm>"),
   (c!"std::memory_order", c!"<atomic>"),
   (c!"std::atomic_signal_fence", c!"<atomic>"),
   (c!"std::atomic_thread_fence", c!"<atomic>"),
   (c!"std::nested_exception", c!"<exception>"),
   (c!"std::function", c!"<functional>"),
   (c!"std::_Manager_operation", c!"<functional>"),
   (c!"std::bad_function_call", c!"<functional>"),
   (c!"std::advance", c!"<iterator>"),
   (c!"std::distance", c!"<iterator>"),
   (c!"std::iterator", c!"<iterator>"),
   (c!"std::iterator_traits", c!"<iterator>"),
   (c!"std::reverse_iterator", c!"<iterator>"),
   (c!"std::bidirectional_iterator_tag", c!"<iterator>"),
   (c!"std::forward_iterator_tag", c!"<iterator>"),
   (c!"std::input_iterator_tag", c!"<iterator>"),
   (c!"std::random_access_iterator_tag", c!"<iterator>"),
   (c!"std::begin", c!"<iterator>"),
   (c!"std::end", c!"<iterator>"),
   (c!"std::ctype", c!"<locale>"),
   (c!"std::ctype_byname", c!"<locale>"),
   (c!"std::ctype_base", c!"<locale>"),
   (c!"std::locale", c!"<locale>"),
   (c!"std::money_base", c!"<locale>"),
   (c!"std::money_base::pattern", c!"<locale>"),
   (c!"std::messages_base", c!"<locale>"),
   (c!"std::numpunct", c!"<locale>"),
   (c!"std::num_get", c!"<locale>"),
   (c!"std::num_put", c!"<locale>"),
   (c!"std::numpunct_byname", c!"<locale>"),
   (c!"std::time_base", c!"<locale>"),
   (c!"std::codecvt", c!"<locale>"),
   (c!"std::codecvt_base", c!"<locale>"),
   (c!"std::codecvt_byname", c!"<locale>"),
   (c!"std::basic_regex", c!"<regex>"),
   (c!"std::regex_traits", c!"<regex>"),
   (c!"std::basic_string", c!"<string>"),
   (c!"std::char_traits", c!"<string>"),
   (c!"std::thread::id", c!"<thread>"),
   (c!"std::mbstate_t", c!"<cwchar>"),
   (c!"std::uninitialized_copy", c!"<memory>"),
   (c!"std::mutex", c!"<mutex>"),
   (c!" std::adopt_lock", c!"<mutex>"),
   (c!"std::adopt_lock_t", c!"<mutex>"),
   (c!"std::defer_lock", c!"<mutex>"),
   (c!"std::defer_lock_t", c!"<mutex>"),
   (c!"std::try_to_lock", c!"<mutex>"),
   (c!"std::try_to_lock_t", c!"<mutex>"),
   (c!"std::unique_lock", c!"<mutex>"),
   (c!"std::lock_guard", c!"<mutex>"),
   (c!"std::move", c!"<utility>")]

/-- `name_map_old`, type.cpp:184-205. -/
def includeNameMap : List (Str × Str) :=
  [(c!"std::basic_ios", c!"<ios>"),
   (c!"std::list", c!"<list>"),
   (c!"std::map", c!"<map>"),
   (c!"std::allocator", c!"<memory>"),
   (c!"std::set", c!"<set>"),
   (c!"std::stack", c!"<stack>"),
   (c!"std::vector", c!"<vector>"),
   (c!"std::pair", c!"<utility>"),
   (c!"__gnu_cxx::__normal_iterator", c!"<iterator>"),
   (c!"std::__1::basic_string<char,std::__1::char_traits<char>,std::__1::allocator<char>>", c!"<string>"),
   (c!"std::__1::basic_streambuf<char,std::__1::char_traits<char>>", c!"<streambuf>"),
   (c!"std::__1::basic_istream<char,std::__1::char_traits<char>>", c!"<istream>"),
   (c!"std::__1::basic_iostream<char,std::__1::char_traits<char>>", c!"<ostream>")]

/-- `include_map`, type.cpp:208-311. -/
def includeFileMap : List (Str × Str) :=
  [(c!"<bits/atomic_base.h>", c!"<atomic>"),
   (c!"<bits/ios_base.h>", c!"<ios>"),
   (c!"<bits/istream.tcc>", c!"<istream>"),
   (c!"<bits/ostream.tcc>", c!"<ostream>"),
   (c!"<bits/postypes.h>", c!"<ios>"),
   (c!"<bits/stl_function.h>", c!"<functional>"),
   (c!"<bits/stl_tree.h>", c!"<map>"),
   (c!"<bits/stl_map.h>", c!"<map>"),
   (c!"<bits/streambuf.tcc>", c!"<streambuf>"),
   (c!"<bits/stl_bvector.h>", c!"<vector>"),
   (c!"<bits/stl_vector.h>", c!"<vector>"),
   (c!"<bits/algorithmfwd.h>", c!"<algorithm>"),
   (c!"<bits/stl_algo.h>", c!"<algorithm>"),
   (c!"<bits/fstream.tcc>", c!"<fstream>"),
   (c!"<bits/sstream.tcc>", c!"<sstream>"),
   (c!"<bits/stl_list.h>", c!"<list>"),
   (c!"<bits/stl_deque.h>", c!"<deque>"),
   (c!"<bits/stl_queue.h>", c!"<queue>"),
   (c!"<bits/sched.h>", c!"<unistd.h>"),
   (c!"<bits/pthreadtypes.h>", c!"<pthread.h>"),
   (c!"<bits/gthr-default.h>", c!"<pthread.h>"),
   (c!"<bits/random.h>", c!"<random>"),
   (c!"<bits/basic_string.h>", c!"<string>"),
   (c!"<bits/basic_string.tcc>", c!"<string>"),
   (c!"<__string>", c!"<string>"),
   (c!"<bits/streambuf_iterator.h>", c!"<streambuf>"),
   (c!"<bits/shared_ptr.h>", c!"<memory>"),
   (c!"<bits/unique_ptr.h>", c!"<memory>"),
   (c!"<bits/uses_allocator.h>", c!"<memory>"),
   (c!"<bits/shared_ptr_base.h>", c!"<memory>"),
   (c!"<backward/auto_ptr.h>", c!"<memory>"),
   (c!"<ext/concurrence.h>", c!"<memory>"),
   (c!"<bits/ptr_traits.h>", c!"<memory>"),
   (c!"<bits/alloc_traits.h>", c!"<memory>"),
   (c!"<bits/stl_uninitialized.h>", c!"<memory>"),
   (c!"<bits/error_constants.h>", c!"<system_error>"),
   (c!"<bits/locale_classes.h>", c!"<locale>"),
   (c!"<bits/locale_classes.tcc>", c!"<locale>"),
   (c!"<__tree>", c!"<iterator>"),
   (c!"<bits/stl_iterator.h>", c!"<iterator>"),
   (c!"<__functional_base>", c!"<functional>"),
   (c!"<_wctype.h>", c!"<cwctype>"),
   (c!"<ctype.h>", c!"<cctype>"),
   (c!"<wchar.h>", c!"<cwchar>"),
   (c!"<bits/functional_hash.h>", c!"<functional>"),
   (c!"<bits/unordered_set.h>", c!"<unordered_set>"),
   (c!"<bits/unordered_map.h>", c!"<unordered_map>"),
   (c!"<__hash_table>", c!"<unordered_map>"),
   (c!"<bits/hashtable_policy.h>", c!"<unordered_map>"),
   (c!"<bits/hashtable.h>", c!"<unordered_map>"),
   (c!"<bits/stl_multiset.h>", c!"<set>"),
   (c!"<bits/stl_multimap.h>", c!"<map>"),
   (c!"<__locale>", c!"<locale>"),
   (c!"<__bit_reference>", c!"<vector>"),
   (c!"<bits/stl_stack.h>", c!"<stack>"),
   (c!"<bits/regex_cursor.h>", c!"<regex>"),
   (c!"<bits/regex_nfa.h>", c!"<regex>"),
   (c!"<bits/exception.h>", c!"<exception>"),
   (c!"<bits/hashtable_policy.h>", c!"<unordered_map>"),
   (c!"<__mutex_base>", c!"<mutex>"),
   (c!"<bits/types/struct_FILE.h>", c!"<cstdio>"),
   (c!"<bits/forward_list.h>", c!"<forward_list>"),
   (c!"<bits/stl_heap.h>", c!"<algorithm>"),
   (c!"<bits/types/__mbstate_t.h>", c!"<ios>"),
   (c!"<bits/libio.h>", c!"<stdio.h>"),
   (c!"<bits/types/struct_tm.h>", c!"<time.h>"),
   (c!"<bits/types/struct_timespec.h>", c!"<time.h>"),
   (c!"<bits/types/struct_itimerspec.h>", c!"<time.h>"),
   (c!"<bits/pthreadtypes-arch.h>", c!"<pthread.h>"),
   (c!"<bits/pthread_stack_min-dynamic.h>", c!"<pthread.h>"),
   (c!"<bits/thread-shared-types.h>", c!"<pthread.h>"),
   (c!"<bits/struct_mutex.h>", c!"<pthread.h>"),
   (c!"<bits/struct_rwlock.h>", c!"<pthread.h>"),
   (c!"<bits/types/struct_sched_param.h>", c!"<pthread.h>"),
   (c!"<bits/setjmp.h>", c!"<csetjmp>"),
   (c!"<bits/types/struct___jmp_buf_tag.h>", c!"<csetjmp>")]

/-- The loop of `relevant_include`, type.cpp:99-100: the text up to and with the terminator. -/
def takeThrough (terminator : Char) : Str → Str
  | [] => []
  | c :: cs => if c = terminator then [c] else c :: takeThrough terminator cs

/-- `relevant_include`, type.cpp:81-107. `data` is the source text from the location of the `#include` directive that included the file of
the declaration (`none` if there is none), up to the first NUL character. -/
def relevantInclude (data : Option Str) : Str :=
  match data with
  | none => []
  | some s =>
    let r := match s with
      | c :: cs => if s.length > 2 && (c == '"' || c == '<') then c :: takeThrough (if c == '"' then '"' else '>') cs else []
      | [] => []
    if r.head? = some '"' then [] else r

variable (E : Env)

/-- The end of `add_relevant_include_for_decl`, type.cpp:336-374, for the name of lines 313-334 and `relevant_include(decl)`: the
include lines that are added (at most one). -/
def includesForName (name incl : Str) : List Str :=
  let name := stdName E name
  let annotated := fun (i : Str) => if E.opts.annotateIncludes then i ++ c!" // " ++ name else i
  match includeTypeMap.find? (fun p => p.1 == name) with
  | some p => [annotated p.2]
  | none => match includeNameMap.find? (fun p => beginsWith name p.1) with
    | some p => [annotated p.2]
    | none =>
      let incl := match includeFileMap.find? (fun p => incl == p.1) with
        | some p => p.2
        | none => incl
      if incl.isEmpty then [] else [annotated incl]

/-- The name of lines 313-334 for a class: the name of the class around it, if there is one. -/
def includeNameOfClass (C : Record) : Str :=
  match C.outer with
  | some o => (E.cls o).qname
  | none => C.qname

/-- The name of lines 313-334 for a function: for a method the name of its class, or of the class around that. -/
def includeNameOfFunc (F : Func) : Str :=
  match F.method with
  | some m => includeNameOfClass E (E.cls m.parent)
  | none => F.qname

/-- The name of lines 313-334 for an enumeration: none for a class member. -/
def includeNameOfEnum (e : EnumD) : Str := if e.outer.isSome then [] else e.qname

/-- The declarations that `add_relevant_includes` visits. -/
inductive Node where
  | cls (i : Nat)
  | enm (i : Nat)
  | fn (F : Func)
deriving DecidableEq

/-- The class `IncludeSet`, binder.hpp:32-58; `stack` is the map from declarations to levels. -/
structure IncludeSet where
  includes : List Str := []
  stack : Node → Option Nat := fun _ => none

/-- `IncludeSet::add_decl`, binder.cpp:28-42: the new set if it returns true, `none` if it returns false. -/
def IncludeSet.addDecl (s : IncludeSet) (d : Node) (level : Nat) : Option IncludeSet :=
  match s.stack d with
  | none => some { s with stack := fun x => if x = d then some level else s.stack x }
  | some old => if old ≤ level then none else some { s with stack := fun x => if x = d then some level else s.stack x }

/-- `IncludeSet::add_include`, binder.hpp:37, for several lines. -/
def IncludeSet.addIncludes (s : IncludeSet) (is : List Str) : IncludeSet := { s with includes := s.includes ++ is }

/-- What the functions `add_relevant_includes` do: add lines, or visit a declaration with a level. -/
inductive Step where
  | lines (is : List Str)
  | visit (d : Node) (level : Nat)

/-- `add_relevant_includes(QualType)`, type.cpp:378-386: the declaration a type leads to, through pointers and references that are not
behind sugar. -/
def tyNodes : Ty → List Node
  | .const t => tyNodes t
  | .ptr t => tyNodes t
  | .lref t => tyNodes t
  | .rref t => tyNodes t
  | t => match t.head with
    | .record i => [.cls i]
    | .enum i => [.enm i]
    | _ => []

/-- The steps for a template argument of a class, class.cpp:376-387; a type argument is desugared at its head. -/
def argSteps (level : Nat) (a : TArg) : List Step :=
  match a.kind with
  | .type t => (tyNodes t.head).map (.visit · (level + 1))
  | .template key incl => [.lines (includesForName E key incl)]
  | .declaration _ key incl => [.lines (includesForName E key incl)]
  | .integral t => (tyNodes t).map (.visit · (level + 1))
  | .pack _ => []
  | .other => []

/-- The methods among the instances of member function templates that lines 391-404 visit. -/
def templateMethods (C : Record) : List Func :=
  C.members.flatMap fun
    | .funcTemplate specs => specs.filter fun m => m.method.isSome && m.access == .pub && functionBindable E m &&
        !answer (skipFunction E m) && !m.isCtor && !m.isDtor
    | _ => []

/-- `add_relevant_includes(CXXRecordDecl)` after `add_decl`, class.cpp:372-441. -/
def classSteps (i level : Nat) : List Step :=
  let C := E.cls i
  [.lines (includesForName E (includeNameOfClass E C) C.incl)] ++
  (match C.targs with | some as => as.flatMap (argSteps E level) | none => []) ++
  (templateMethods E C).map (fun m => .visit (.fn m) (level + 1)) ++
  (if level < 2 then
    (C.methods.filter fun m => m.access == .pub && functionBindable E m && !m.isDtor).map fun m => .visit (.fn m) (level + 1)
   else [])

/-- `add_relevant_includes(FunctionDecl)` after `add_decl`, function.cpp:487-489. -/
def functionSteps (F : Func) (level : Nat) : List Step :=
  [.lines (includesForName E (includeNameOfFunc E F) F.incl)] ++ (functionTypes F).flatMap fun t => (tyNodes t).map (.visit · level)

/-- `add_relevant_includes(EnumDecl)` after `add_decl`, enum.cpp:38-40. -/
def enumSteps (e : EnumD) : List Step :=
  [.lines (includesForName E (includeNameOfEnum e) e.incl)] ++
  (match e.definitionIncl with
   | some incl => [.lines (includesForName E (includeNameOfEnum e) incl)]
   | none => [])

/-- The steps for a declaration, after `add_decl` returned true. -/
def nodeSteps : Node → Nat → List Step
  | .cls i, level => classSteps E i level
  | .enm i, _ => enumSteps E (E.enumD i)
  | .fn F, level => functionSteps E F level

/-- Several steps, one after the other. -/
def runSteps (visit : IncludeSet → Node → Nat → Option IncludeSet) : IncludeSet → List Step → Option IncludeSet
  | s, [] => some s
  | s, .lines is :: rest => runSteps visit (s.addIncludes is) rest
  | s, .visit d level :: rest => match visit s d level with
    | none => none
    | some s' => runSteps visit s' rest

/-- The functions `add_relevant_includes` for declarations, class.cpp:368-442, function.cpp:483-490, enum.cpp:35-41, with fuel; `steps` is
`nodeSteps E`. -/
def visitF (steps : Node → Nat → List Step) : Nat → IncludeSet → Node → Nat → Option IncludeSet
  | 0, _, _, _ => none
  | n + 1, s, d, level => match s.addDecl d level with
    | none => some s
    | some s' => runSteps (visitF steps n) s' (steps d level)

/-- The include lines of the objects bound into one file: `steps` are those of all of them, one after the other (context.cpp:432), `start`
the lines that were there before. -/
def collectF (n : Nat) (start : List Str) (steps : List Step) : Option IncludeSet :=
  runSteps (visitF (nodeSteps E) n) { includes := start } steps

/-- `ClassBinder::add_relevant_includes`, class.cpp:534-549, as steps; with fuel for the nested classes. The object made for a nested class
in line 544 has no `prefix_includes_`. -/
def classBinderStepsF (prefixIncludes : List Func) : Nat → Nat → List Step
  | 0, _ => []
  | n + 1, i =>
    let C := E.cls i
    [.lines ((E.cfg.classIncludes (stdName E C.qname)).map fun x =>
      if E.opts.annotateIncludes then x ++ c!" // +include_for_class" else x)] ++
    (E.nestedClasses C).flatMap (classBinderStepsF [] n) ++
    prefixIncludes.map (fun m => .visit (.fn m) 0) ++ [.visit (.cls i) 0, .lines [c!"<sstream> // __str__"]]

/-- `ClassBinder::add_relevant_includes`, class.cpp:534-549; `prefixIncludes` is `prefix_includes_`. -/
def classBinderSteps (i : Nat) (prefixIncludes : List Func) : List Step := classBinderStepsF E prefixIncludes (E.nestRank i + 1) i

/-- `FunctionBinder::add_relevant_includes`, function.cpp:610-613. -/
def functionBinderSteps (F : Func) : List Step := [.visit (.fn F) 0]

/-- `EnumBinder::add_relevant_includes`, enum.cpp:169-172. -/
def enumBinderSteps (e : Nat) : List Step := [.visit (.enm e) 0]

end Binder
