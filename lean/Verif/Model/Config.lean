import Verif.Basic.Str
import Verif.Model.Util

/-!
# Model of `source/config.cpp` and `source/config.hpp`

Line numbers refer to `/repo/source/config.cpp` unless another file is named.
-/

namespace Binder

/-- `Config`, config.hpp:29-127. `std::vector<string>` is a list; `std::set<string>` is a list used only through membership;
`std::map<string, string>` is a function to `Option` and `std::map<string, vector<string>>` a function to lists, because the
program only looks keys up. `root_module`, `prefix`, `maximum_file_length`, `skip_line_number` (never touched by `read`) are
parameters of the generator model instead. -/
structure Config where
  namespacesToBind : List Str := []
  namespacesToSkip : List Str := []
  classesToBind : List Str := []
  classesToSkip : List Str := []
  enumsToBind : List Str := []
  enumsToSkip : List Str := []
  functionsToBind : List Str := []
  functionsToSkip : List Str := []
  includesToAdd : List Str := []
  includesToSkip : List Str := []
  fieldsToSkip : List Str := []
  bufferProtocols : List Str := []
  moduleLocalToAdd : List Str := []
  moduleLocalToSkip : List Str := []
  smartHeldClasses : List Str := []
  pythonBuiltins : List Str := []
  notPythonBuiltins : List Str := []
  binders : Str → Option Str := fun _ => none
  addOnBinders : Str → Option Str := fun _ => none
  binderForNamespaces : Str → Option Str := fun _ => none
  addOnBinderForNamespaces : Str → Option Str := fun _ => none
  customTrampolineFunctions : Str → Option Str := fun _ => none
  classIncludes : Str → List Str := fun _ => []
  namespaceIncludes : Str → List Str := fun _ => []
  staticPointerPolicy : Str := c!"pybind11::return_value_policy::automatic"
  staticLvaluePolicy : Str := c!"pybind11::return_value_policy::automatic"
  staticRvaluePolicy : Str := c!"pybind11::return_value_policy::automatic"
  memberPointerPolicy : Str := c!"pybind11::return_value_policy::automatic"
  memberLvaluePolicy : Str := c!"pybind11::return_value_policy::automatic"
  memberRvaluePolicy : Str := c!"pybind11::return_value_policy::automatic"
  defaultCallGuard : Str := []
  holderType : Str := c!"std::shared_ptr"
  pybind11IncludeFile : Str := c!"pybind11/pybind11.h"
  prefixForStaticMemberFunctions : Str := []

/-- The exceptions of `Config::read`, with the line they quote. -/
inductive ReadError where
  /-- line 112 -/
  | firstCharacter (line : Str)
  /-- line 115 -/
  | noSpace (line : Str)
  /-- lines 162, 172 -/
  | mustBePlus (token : Str)
  /-- line 39, via lines 158, 168, 191, 198, 205, 212, 246 -/
  | noSecondWord (line : Str)
  /-- line 252 -/
  | unknownToken (token line : Str)
deriving DecidableEq, Repr

/-- The exceptions of the queries, lines 287, 321, 453. -/
inductive QueryError where
  | conflict (ns : Str)
deriving DecidableEq, Repr

/-- `s.find(' ')` etc., a character search. -/
def findChar (ch : Char) : Str → Option Nat
  | [] => none
  | x :: xs => if x == ch then some 0 else (findChar ch xs).map (· + 1)

/-- `std::min` of two positions where `none` is `npos`. -/
def minPos : Option Nat → Option Nat → Option Nat
  | none, b => b
  | a, none => a
  | some a, some b => some (if a ≤ b then a else b)

/-- `split_in_two`, lines 32-41; `none` is the exception. -/
def splitInTwo (s : Str) : Option (Str × Str) :=
  match minPos (findChar ' ' s) (findChar '\t' s) with
  | none => none
  | some i => some (s.take i, s.drop (i + 1))

/-- `erase(remove(..., ' '))`, lines 121, 332, 344, 361, 374, 425, 464. -/
def despace (s : Str) : Str := s.filter (fun x => x != ' ')

/-- `m[k] = v` on a map. -/
def mapSet (m : Str → Option Str) (k v : Str) : Str → Option Str := fun x => if x = k then some v else m x

/-- `m[k].push_back(v)` on a map to vectors. -/
def mapPush (m : Str → List Str) (k v : Str) : Str → List Str := fun x => if x = k then m x ++ [v] else m x

/-- The `split_in_two(name, error)` call followed by the use `k` of the two halves. -/
def withTwo (name line : Str) (k : Str → Str → Config) : Except ReadError Config :=
  match splitInTwo name with
  | none => .error (.noSecondWord line)
  | some (a, b) => .ok (k a b)

/-- The `if`/`else if` chain of `Config::read`, lines 125-254. -/
def applyToken (c : Config) (line : Str) (bind : Bool) (token name : Str) : Except ReadError Config :=
  let nws := despace name
  if token = c!"namespace" then
    if bind then .ok { c with namespacesToBind := c.namespacesToBind ++ [nws] }
    else .ok { c with namespacesToSkip := c.namespacesToSkip ++ [nws] }
  else if token = c!"class" then
    if bind then .ok { c with classesToBind := c.classesToBind ++ [nws] }
    else .ok { c with classesToSkip := c.classesToSkip ++ [nws] }
  else if token = c!"enum" then
    if bind then .ok { c with enumsToBind := c.enumsToBind ++ [nws] }
    else .ok { c with enumsToSkip := c.enumsToSkip ++ [nws] }
  else if token = c!"python_builtin" then
    if bind then .ok { c with pythonBuiltins := c.pythonBuiltins ++ [nws] }
    else .ok { c with notPythonBuiltins := c.notPythonBuiltins ++ [nws] }
  else if token = c!"function" then
    if bind then .ok { c with functionsToBind := c.functionsToBind ++ [nws] }
    else .ok { c with functionsToSkip := c.functionsToSkip ++ [nws] }
  else if token = c!"include" then
    if bind then .ok { c with includesToAdd := c.includesToAdd ++ [nws] }
    else .ok { c with includesToSkip := c.includesToSkip ++ [nws] }
  else if token = c!"include_for_class" then
    if bind then withTwo name line fun a b => { c with classIncludes := mapPush c.classIncludes a b }
    else .error (.mustBePlus token)
  else if token = c!"include_for_namespace" then
    if bind then withTwo name line fun a b => { c with namespaceIncludes := mapPush c.namespaceIncludes a b }
    else .error (.mustBePlus token)
  else if token = c!"buffer_protocol" then
    if bind then .ok { c with bufferProtocols := c.bufferProtocols ++ [nws] } else .ok c
  else if token = c!"module_local_namespace" then
    if bind then .ok { c with moduleLocalToAdd := c.moduleLocalToAdd ++ [nws] }
    else .ok { c with moduleLocalToSkip := c.moduleLocalToSkip ++ [nws] }
  else if token = c!"binder" then
    if bind then withTwo name line fun a b => { c with binders := mapSet c.binders a (trim b) } else .ok c
  else if token = c!"add_on_binder" then
    if bind then withTwo name line fun a b => { c with addOnBinders := mapSet c.addOnBinders a (trim b) } else .ok c
  else if token = c!"binder_for_namespace" then
    if bind then withTwo name line fun a b => { c with binderForNamespaces := mapSet c.binderForNamespaces a (trim b) }
    else .ok c
  else if token = c!"add_on_binder_for_namespace" then
    if bind then withTwo name line fun a b => { c with addOnBinderForNamespaces := mapSet c.addOnBinderForNamespaces a (trim b) }
    else .ok c
  else if token = c!"field" then
    if !bind then .ok { c with fieldsToSkip := c.fieldsToSkip ++ [nws] } else .ok c
  else if token = c!"custom_shared" then .ok { c with holderType := nws }
  else if token = c!"smart_holder" then
    if bind then .ok { c with smartHeldClasses := c.smartHeldClasses ++ [nws] } else .ok c
  else if token = c!"pybind11_include_file" then .ok { c with pybind11IncludeFile := nws }
  else if token = c!"default_static_pointer_return_value_policy" then .ok { c with staticPointerPolicy := nws }
  else if token = c!"default_static_lvalue_reference_return_value_policy" then .ok { c with staticLvaluePolicy := nws }
  else if token = c!"default_static_rvalue_reference_return_value_policy" then .ok { c with staticRvaluePolicy := nws }
  else if token = c!"default_member_pointer_return_value_policy" then .ok { c with memberPointerPolicy := nws }
  else if token = c!"default_member_lvalue_reference_return_value_policy" then .ok { c with memberLvaluePolicy := nws }
  else if token = c!"default_member_rvalue_reference_return_value_policy" then .ok { c with memberRvaluePolicy := nws }
  else if token = c!"default_call_guard" then .ok { c with defaultCallGuard := nws }
  else if token = c!"prefix_for_static_member_functions" then .ok { c with prefixForStaticMemberFunctions := nws }
  else if token = c!"trampoline_member_function_binder" then
    if bind then withTwo name line fun a b => { c with customTrampolineFunctions := mapSet c.customTrampolineFunctions a b }
    else .ok c
  else .error (.unknownToken token line)

/-- Lines 112-254: a line that is neither empty nor a comment, after the carriage return was removed. -/
def applyBody (c : Config) (line : Str) : Except ReadError Config :=
  match line with
  | [] => .ok c
  | c0 :: _ =>
    if c0 != '+' && c0 != '-' then .error (.firstCharacter line)
    else match findChar ' ' line with
      | none => .error (.noSpace line)
      | some space => applyToken c line (c0 == '+') (Str.substr line 1 (space - 1)) (line.drop (space + 1))

/-- One iteration of the loop of `Config::read`, lines 105-254 (the empty line left by line 109 is the `[]` case of
`applyBody`). -/
def applyLine (c : Config) (line : Str) : Except ReadError Config :=
  if line = [] then .ok c
  else if line.head? = some '#' then .ok c
  else if line.getLast? = some '\r' then applyBody c line.dropLast
  else applyBody c line

/-- The loop of `Config::read`, line 104, over the lines of the file. -/
def readLines (c : Config) : List Str → Except ReadError Config
  | [] => .ok c
  | l :: ls => match applyLine c l with
    | .error e => .error e
    | .ok c' => readLines c' ls

/-- The sequence of lines `std::getline` delivers, line 104: pieces ended by `'\n'`; a final empty piece is not delivered.
`cur` is the piece being collected. -/
def getlinesGo : Str → Str → List Str
  | [], cur => if cur = [] then [] else [cur]
  | x :: xs, cur => if x = '\n' then cur :: getlinesGo xs [] else getlinesGo xs (cur ++ [x])

/-- All lines of a file. -/
def getlines (content : Str) : List Str := getlinesGo content []

/-- `Config::read`, lines 54-256, for a file that can be opened and has the given content. -/
def readConfig (c : Config) (content : Str) : Except ReadError Config := readLines c (getlines content)

/-- The loop of lines 264-272: the locals `to_bind` and `to_bind_flag` after the loop. -/
def scanBind (ns : Str) (entries : List Str) : Str × Bool :=
  entries.foldl (fun (st : Str × Bool) n =>
    let st := if n.length == 0 then (st.1, true) else st
    if beginsWith ns n then (if n.length > st.1.length then (n, true) else st) else st) ([], false)

/-- The loops of lines 274-281, 299-306 and 308-315: the locals `to_skip` and `to_skip_flag` (`to_bind`, `to_bind_flag`)
after the loop. -/
def scanPlain (ns : Str) (entries : List Str) : Str × Bool :=
  entries.foldl (fun (st : Str × Bool) n =>
    if beginsWith ns n then (if n.length > st.1.length then (n, true) else st) else st) ([], false)

/-- `Config::is_namespace_binding_requested`, lines 259-292. -/
def namespaceBindingRequested (c : Config) (ns : Str) : Except QueryError Bool :=
  let (toBind, bindFlag) := scanBind ns c.namespacesToBind
  let (toSkip, skipFlag) := scanPlain ns c.namespacesToSkip
  if toBind.length > toSkip.length then .ok true
  else if toBind.length < toSkip.length then .ok false
  else if bindFlag && skipFlag then .error (.conflict ns)
  else if bindFlag then .ok true
  else .ok false

/-- `Config::is_namespace_skipping_requested`, lines 294-326. -/
def namespaceSkippingRequested (c : Config) (ns : Str) : Except QueryError Bool :=
  let (toBind, bindFlag) := scanPlain ns c.namespacesToBind
  let (toSkip, skipFlag) := scanPlain ns c.namespacesToSkip
  if toBind.length > toSkip.length then .ok false
  else if toBind.length < toSkip.length then .ok true
  else if bindFlag && skipFlag then .error (.conflict ns)
  else if skipFlag then .ok true
  else .ok false

/-- `Config::is_function_binding_requested`, lines 329-339. -/
def functionBindingRequested (c : Config) (f : Str) : Bool := c.functionsToBind.contains (despace f)
/-- `Config::is_function_skipping_requested`, lines 341-354. -/
def functionSkippingRequested (c : Config) (f : Str) : Bool := c.functionsToSkip.contains (despace f)
/-- `Config::is_class_binding_requested`, lines 358-368. -/
def classBindingRequested (c : Config) (k : Str) : Bool := c.classesToBind.contains (despace k)
/-- `Config::is_class_skipping_requested`, lines 371-384. -/
def classSkippingRequested (c : Config) (k : Str) : Bool := c.classesToSkip.contains (despace k)
/-- `Config::is_field_skipping_requested`, lines 387-390. -/
def fieldSkippingRequested (c : Config) (f : Str) : Bool := c.fieldsToSkip.contains f
/-- `Config::is_enum_binding_requested`, lines 393-400. -/
def enumBindingRequested (c : Config) (e : Str) : Bool := c.enumsToBind.contains e
/-- `Config::is_enum_skipping_requested`, lines 403-410. -/
def enumSkippingRequested (c : Config) (e : Str) : Bool := c.enumsToSkip.contains e
/-- `Config::is_custom_trampoline_function_requested`, lines 414-419. -/
def customTrampolineFunction (c : Config) (f : Str) : Str := (c.customTrampolineFunctions f).getD []
/-- `Config::is_buffer_protocol_requested`, lines 422-435. -/
def bufferProtocolRequested (c : Config) (k : Str) : Bool := c.bufferProtocols.contains (despace k)
/-- `Config::is_smart_holder_requested`, lines 461-474. -/
def smartHolderRequested (c : Config) (k : Str) : Bool := c.smartHeldClasses.contains (despace k)
/-- `Config::is_include_skipping_requested`, lines 476-482. -/
def includeSkippingRequested (c : Config) (i : Str) : Bool := c.includesToSkip.any (fun e => beginsWith i e)

/-- `Config::is_module_local_requested`, lines 437-459. -/
def moduleLocalRequested (c : Config) (ns : Str) : Except QueryError Bool :=
  if c.moduleLocalToAdd.contains c!"@all_namespaces" then
    if c.moduleLocalToSkip.contains ns then .ok false else .ok true
  else if c.moduleLocalToAdd.contains ns then
    if c.moduleLocalToSkip.contains ns then .error (.conflict ns) else .ok true
  else .ok false

/-- `Config::includes_code`, lines 485-492; `stl` is the option `O_include_pybind11_stl`. `tellp() != 0` means that
something was written. -/
def includesCode (c : Config) (stl : Bool) : Str :=
  let s := c.includesToAdd.foldl (fun r i => r ++ c!"#include " ++ i ++ c!"\n") []
  let s := if stl then s ++ c!"#include <pybind11/stl.h>\n" else s
  if s.length ≠ 0 then s ++ c!"\n" else s

/-- The options that the constructor of `BinderVisitor` copies into the configuration, main.cpp:93-94. -/
structure BindOptions where
  bind : List Str
  skip : List Str

/-- What the constructor of `BinderVisitor` does to the global configuration at the start of each translation unit,
main.cpp:86-96, with `--config` given. The scalar options of lines 88-91 are parameters of the generator model. -/
def startTranslationUnit (o : BindOptions) (content : Str) (c : Config) : Except ReadError Config :=
  readConfig { c with namespacesToBind := o.bind, namespacesToSkip := o.skip } content

end Binder
