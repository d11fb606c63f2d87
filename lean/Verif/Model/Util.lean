import Verif.Basic.Str
import Verif.Basic.Loop

/-!
# Model of `source/util.cpp`

String helpers. Line numbers refer to `/repo/source/util.cpp` unless another file is named.
-/

namespace Binder

/-- Body of the loop of `split`, util.cpp:44-52. The first argument is the part of `buffer` from index
`i` on, `line` and `lines` are the C++ locals; line 52 is the `[]` case. -/
def splitGo (sep : Str) : Str → Str → List Str → List Str
  | [], line, lines => if line.length != 0 then lines ++ [line] else lines
  | c :: cs, line, lines =>
    if !(Str.compareAt (c :: cs) 0 sep.length sep) then splitGo sep cs (line ++ [c]) lines
    else splitGo sep cs [] (lines ++ [line])

/-- `split(buffer, separator)`, util.cpp:39-55. -/
def split (buffer sep : Str) : List Str := splitGo sep buffer [] []

/-- One iteration of the `while` loop of `replace`, util.cpp:72-75. State: the string `r` and the index `i`. -/
def replaceStep (frm to : Str) : Str × Nat → (Str × Nat) ⊕ Str
  | (r, i) => match Str.findFrom r frm i with
    | none => .inr r
    | some j => .inl (Str.replaceAt r j frm.length to, j + to.length)

/-- Result of `replace(r, from, to)` for non-empty `from`, util.cpp:69-76, computed without an index: `replaceGo from to k s`
drops the first `k` characters of `s` (the rest of an occurrence just replaced) and scans on.
That the C++ loop `replaceStep` computes this is theorem `C12_replace_loop`. -/
def replaceGo (frm to : Str) : Nat → Str → Str
  | _, [] => []
  | k + 1, _ :: cs => replaceGo frm to k cs
  | 0, c :: cs =>
    if frm.isPrefixOf (c :: cs) then to ++ replaceGo frm to (frm.length - 1) cs else c :: replaceGo frm to 0 cs

/-- `replace_(s, from, to)`, util.cpp:79-84, for non-empty `from` (all calls in the program pass a non-empty literal). -/
def replaceAll (s frm to : Str) : Str := replaceGo frm to 0 s

/-- `begins_with(source, prefix)`, util.cpp:88-91. -/
def beginsWith (source pre : Str) : Bool := Str.compareAt source 0 pre.length pre

/-- `ends_with(source, prefix)`, util.cpp:95-99. -/
def endsWith (source suf : Str) : Bool :=
  if suf.length > source.length then false
  else Str.compareAt source (source.length - suf.length) suf.length suf

/-- `indent(code, indentation)`, util.cpp:102-110. -/
def indent (code indentation : Str) : Str :=
  (split code c!"\n").foldl (fun r l => r ++ (if l.length != 0 then indentation ++ l ++ c!"\n" else l ++ c!"\n")) []

/-- The characters `trim` removes, util.cpp:116. -/
def isBlank (c : Char) : Bool := c == ' ' || c == '\t'

/-- `find_first_not_of(" \t")`, util.cpp:118. -/
def findFirstNotBlank : Str → Option Nat
  | [] => none
  | c :: cs => if isBlank c then (findFirstNotBlank cs).map (· + 1) else some 0

/-- `find_last_not_of(" \t")`, util.cpp:121. -/
def findLastNotBlank : Str → Option Nat
  | [] => none
  | c :: cs => match findLastNotBlank cs with
    | some i => some (i + 1)
    | none => if isBlank c then none else some 0

/-- `trim(s)`, util.cpp:114-124. If the second search failed `end` would be `npos` and `end - begin + 1` would wrap;
the model returns `substr(begin, npos - begin + 1) = substr(begin)` there (unreachable, see `C15_trim`). -/
def trim (s : Str) : Str :=
  match findFirstNotBlank s with
  | none => []
  | some b => match findLastNotBlank s with
    | some e => Str.substr s b (e - b + 1)
    | none => s.drop b

/-- The string part of `namespace_from_named_decl`, util.cpp:156-169: `qn` is the standard form of the qualified name,
`n` the unqualified name. `namespace_len` is an `int`; a negative length makes `substr` return the whole string. -/
def namespaceOfNames (qn n : Str) : Str :=
  let len : Int := (qn.length : Int) - (n.length : Int)
  let k : Int := if len > 1 then len - 2 else len
  if k < 0 then qn else qn.take k.toNat

/-- `base_namespace(ns)`, util.cpp:180-185. -/
def baseNamespace (ns : Str) : Str :=
  match Str.rfind c!"::" ns with
  | none => []
  | some f => Str.substr ns 0 f

/-- `last_namespace(ns)`, util.cpp:189-194. -/
def lastNamespace (ns : Str) : Str :=
  match Str.rfind c!"::" ns with
  | none => ns
  | some f => Str.substr ns (f + 2) (ns.length - f - 2)

/-- The literal `"_Bool"`, util.cpp:200. -/
def boolName : Str := c!"_Bool"

/-- The boundary test of `fix_boolean_types`, util.cpp:203, for an occurrence at index `i`.
Precondition of the code: `std::isalpha`/`std::isdigit` are undefined for negative `char`; characters are assumed to be ASCII. -/
def boolBoundary (ty : Str) (i : Nat) : Bool :=
  (i == 0 || ((ty[i - 1]?).any fun c => !isAlpha c && !isDigit c)) &&
  (i + boolName.length == ty.length || ((ty[i + boolName.length]?).any fun c => !isAlpha c && !isDigit c))

/-- One iteration of the loop of `fix_boolean_types`, util.cpp:202-206. -/
def fixBoolStep : Str × Nat → (Str × Nat) ⊕ Str
  | (ty, i) => match Str.findFrom ty boolName i with
    | none => .inr ty
    | some j =>
      if boolBoundary ty j then .inl (Str.replaceAt ty j boolName.length c!"bool", j + 1)
      else .inl (ty, j + 1)

/-- Is the character a letter or a digit (the class used at word boundaries by util.cpp:203). -/
def alnumOpt : Option Char → Bool
  | none => false
  | some c => isAlpha c || isDigit c

/-- Result of `fix_boolean_types`, util.cpp:198-207, as a left-to-right scan: `prev` is the character before the current position,
`k` the number of characters still to be dropped. That the C++ loop computes this is theorem `C17_fix_boolean_types_loop`. -/
def fixBoolGo : Option Char → Nat → Str → Str
  | _, _, [] => []
  | prev, k + 1, _ :: cs => fixBoolGo prev k cs
  | prev, 0, c :: cs =>
    if boolName.isPrefixOf (c :: cs) && !alnumOpt prev && !alnumOpt (cs[boolName.length - 1]?) then
      c!"bool" ++ fixBoolGo (some 'l') (boolName.length - 1) cs
    else c :: fixBoolGo (some c) 0 cs

/-- `fix_boolean_types(type)`, util.cpp:198-207. -/
def fixBooleanTypes (ty : Str) : Str := fixBoolGo none 0 ty

/-- The separators that `mangle_type_name` turns into `_`, util.cpp:274. -/
def isMangleSep (c : Char) : Bool := c == ' ' || c == '<' || c == '>' || c == ',' || c == ':'

/-- The loop of `mangle_type_name`, util.cpp:273-280; state: `r`. -/
def mangleLoop : Str → Str → Str
  | r, [] => r
  | r, c :: cs =>
    mangleLoop (if isMangleSep c then (if r.isEmpty || r.getLast? != some '_' then r ++ ['_'] else r) else r ++ [c]) cs

/-- The flag `template_` after the loop, util.cpp:279. -/
def mangleIsTemplate (name : Str) : Bool := name.any fun c => c == '<' || c == '>' || c == ','

/-- `mangle_type_name(name, mark_template)`, util.cpp:268-289. -/
def mangleTypeName (name : Str) (markTemplate : Bool := true) : Str :=
  let r := mangleLoop [] name
  if mangleIsTemplate name && markTemplate then
    (replaceAll (replaceAll r c!"*" c!"_star_") c!"&" c!"_ref_") ++ ['t']
  else r

/-- The text transformation of `generate_documentation_string_for_declaration`, util.cpp:346-358, applied to the text that
`get_text` extracted from the comment. -/
def docString (text : Str) : Str :=
  let text := text.dropWhile fun c => c == ' ' || c == '\n'
  let text := replaceAll text c!"\\" c!"\\\\"
  let text := replaceAll text c!"\"" c!"\\\""
  replaceAll text c!"\n" c!"\\n"

end Binder
