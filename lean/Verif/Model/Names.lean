import Verif.Basic.Str
import Verif.Model.Util
import Verif.Model.Config
import Verif.Model.Builtin
import Verif.Model.Ast

/-!
# Model of the naming functions of `source/type.cpp`, `source/function.cpp`, `source/class.cpp`, `source/util.cpp`

The static caches of `standard_name` and `simplify_std_class_name` (type.cpp:540-568, 660-679) are left out here; theorem
`C55_cache_transparent` is about them.
-/

namespace Binder

open Cxx

/-- `name_map` of `standard_name_raw`, type.cpp:494-515. -/
def nameMap : List (Str × Str) :=
  [(c!"std::__1::", c!"std::"),
   (c!"std::__cxx11::", c!"std::"),
   (c!"std::basic_string<char>", c!"std::string"),
   (c!"std::basic_string<char, std::char_traits<char>, std::allocator<char> >", c!"std::string"),
   (c!"class std::basic_string<char, struct std::char_traits<char>, class std::allocator<char> >", c!"std::string"),
   (c!"std::basic_ostream<char>", c!"std::ostream"),
   (c!"std::basic_istream<char>", c!"std::istream"),
   (c!"class std::string", c!"std::string"),
   (c!"class std::ostream", c!"std::ostream"),
   (c!"class std::istream", c!"std::istream"),
   (c!"class std::__thread_id", c!"std::thread::id"),
   (c!"std::__thread_id", c!"std::thread::id"),
   (c!"nullptr_t", c!"std::nullptr_t")]

/-- The replacements of `standard_name_raw`, type.cpp:517-518. -/
def applyNameMap (type : Str) : Str := nameMap.foldl (fun r p => replaceAll r p.1 p.2) type

/-- `standard_name_raw`, type.cpp:492-537, with `simplify` for `simplify_std_class_name`. -/
def standardName (simplify : Str → Str) (type : Str) : Str :=
  let r := applyNameMap type
  let r := if beginsWith r c!"std::" then c!"std::" ++ simplify (r.drop 5) else r
  fixBooleanTypes r

variable (E : Env)

/-- `standard_name(string)`, type.cpp:540-568. -/
def stdName (s : Str) : Str := standardName E.simplify s

/-- `standard_name(QualType)`, type.cpp:459-488. -/
def stdTy (t : Ty) : Str :=
  if E.tyName t = c!"std::size_t" then E.tyName t else stdName E (E.tyName t.canon)

/-- `namespace_from_named_decl`, util.cpp:156-169, for a declaration with qualified name `qname` and name `name`. -/
def nsOf (qname name : Str) : Str := namespaceOfNames (stdName E qname) name

/-- `typename_from_type_decl`, util.cpp:173-176, for a class. -/
def typeNameOfRecord (i : Nat) : Str := stdTy E (.record i)
/-- `typename_from_type_decl`, util.cpp:173-176, for an enum. -/
def typeNameOfEnum (i : Nat) : Str := stdTy E (.enum i)

/-- `line_number`, util.cpp:256-265. -/
def lineNumber (line : Str) : Str := if E.opts.skipLineNumber then [] else line

/-- The part `file:... line:...` shared by the comments of context.cpp, class.cpp and function.cpp, e.g. util.cpp:296: the include
without its delimiters. -/
def fileLine (incl line : Str) : Str :=
  c!" file:" ++ (if incl.length ≠ 0 then Str.substr incl 1 (incl.length - 2) else []) ++ c!" line:" ++ lineNumber E line ++ c!"\n"

/-- `generate_comment_for_declaration`, util.cpp:293-297. -/
def commentFor (qname incl line : Str) : Str := c!"// " ++ stdName E qname ++ fileLine E incl line

/-! ## Classes -/

/-- What one template argument adds to `templ`, class.cpp:54-57. -/
def classArgText (a : Str) : Str :=
  let a := if a.head? = some '<' && a.getLast? = some '>' then Str.substr a 1 (a.length - 2) else a
  if a.length > 0 then a ++ c!"," else []

/-- `template_specialization(CXXRecordDecl)`, class.cpp:43-67. -/
def classTemplateText (C : Record) : Str :=
  fixBooleanTypes (match C.targs with
    | some as => (as.foldl (fun t a => t ++ classArgText a.text) c!"<").dropLast ++ c!">"
    | none => [])

/-- `class_qualified_name`, class.cpp:89-92. -/
def classQualifiedName (C : Record) : Str := stdName E (C.qname ++ classTemplateText C)

/-- `class_name`, class.cpp:70-77. -/
def className (C : Record) : Str :=
  let res := stdName E (C.name ++ classTemplateText C)
  if nsOf E C.qname C.name = c!"std" then E.simplify res else res

/-- `python_class_name`, class.cpp:81-85. -/
def pythonClassName (C : Record) : Str := mangleTypeName (className E C)

/-! ## Functions -/

/-- The table of `cpp_python_operator`, function.cpp:49-80. -/
def operatorTable : List (Str × List Str) :=
  [(c!"operator+", [c!"__pos__", c!"__add__"]), (c!"operator-", [c!"__neg__", c!"__sub__"]),
   (c!"operator*", [c!"dereference", c!"__mul__"]), (c!"operator/", [c!"__truediv__"]), (c!"operator%", [c!"__mod__"]),
   (c!"operator~", [c!"__invert__"]), (c!"operator|", [c!"__or__"]), (c!"operator&", [c!"__and__"]),
   (c!"operator^", [c!"__xor__"]), (c!"operator<<", [c!"__lshift__"]), (c!"operator>>", [c!"__rshift__"]),
   (c!"operator+=", [c!"__iadd__"]), (c!"operator-=", [c!"__isub__"]), (c!"operator*=", [c!"__imul__"]),
   (c!"operator/=", [c!"__itruediv__"]), (c!"operator%=", [c!"__imod__"]), (c!"operator|=", [c!"__ior__"]),
   (c!"operator&=", [c!"__iand__"]), (c!"operator^=", [c!"__ixor__"]), (c!"operator<<=", [c!"__ilshift__"]),
   (c!"operator>>=", [c!"__irshift__"]), (c!"operator()", [c!"__call__"]), (c!"operator==", [c!"__eq__"]),
   (c!"operator!=", [c!"__ne__"]), (c!"operator[]", [c!"__getitem__"]), (c!"operator=", [c!"assign"]),
   (c!"operator++", [c!"pre_increment", c!"post_increment"]), (c!"operator--", [c!"pre_decrement", c!"post_decrement"]),
   (c!"operator->", [c!"arrow"])]

/-- `cpp_python_operator`, function.cpp:47-89. -/
def pythonOperator (name : Str) (numParams : Nat) : Str :=
  match operatorTable.lookup name with
  | some vec => if numParams < vec.length then vec.getD numParams [] else vec.getLastD []
  | none => []

/-- `python_function_name`, function.cpp:227-244. -/
def pythonFunctionName (F : Func) : Str := if F.isOperator then pythonOperator F.name F.params.length else F.name

/-- Items separated by `", "`: the loops of function.cpp:97-101, 116-126, 141-151, where the separator is added after every item but
the last. -/
def commaSep : List Str → Str
  | [] => []
  | [x] => x
  | x :: xs => x ++ c!", " ++ commaSep xs

/-- `function_arguments`, function.cpp:93-106. -/
def functionArguments (F : Func) : Str := fixBooleanTypes (commaSep (F.params.map fun p => stdTy E p.ty))

/-- The name of the lambda parameter number `i`, function.cpp:120. -/
def argName (i : Nat) : Str := c!"a" ++ natStr i

/-- Text of one lambda parameter, function.cpp:117-120. -/
def lambdaParam (p : Param × Nat) : Str :=
  stdTy E p.1.ty ++ c!" " ++
    (if !p.1.ty.isRef && !p.1.ty.isPointer then (if !p.1.ty.isConst then c!"const & " else c!"& ") else []) ++ argName p.2

/-- `function_arguments_for_lambda(record, n)`, function.cpp:112-132. -/
def lambdaArguments (F : Func) (n : Nat) : Str × Str :=
  (fixBooleanTypes (commaSep (((F.params.zipIdx).take n).map (lambdaParam E))),
   commaSep (((F.params.zipIdx).take n).map fun p => argName p.2))

/-- The first two components of `function_arguments_for_py_overload`, function.cpp:137-156 (the third is never used). -/
def overloadArguments (F : Func) : Str × Str :=
  (fixBooleanTypes (commaSep ((F.params.zipIdx).map fun p => stdTy E p.1.ty ++ c!" " ++ argName p.2)),
   commaSep ((F.params.zipIdx).map fun p => argName p.2))

/-- What one template argument adds to `templ`, function.cpp:205-208. -/
def functionArgText (a : TArg) : Str :=
  match a.kind with
  | .pack size => if size = 0 then [] else (if a.text.length > 2 then Str.substr a.text 1 (a.text.length - 2) else a.text) ++ c!","
  | _ => a.text ++ c!","

/-- `template_specialization(FunctionDecl)`, function.cpp:160-223. -/
def functionTemplateText (F : Func) : Str :=
  stdName E (if F.templated = .memberSpecialization || F.templated = .functionTemplateSpecialization then
    match F.targs with
    | some as =>
      let t := (as.foldl (fun t a => t ++ functionArgText a) c!"<").dropLast ++ c!">"
      fixBooleanTypes (if t.length = 1 then [] else t)
    | none => []
  else [])

/-- `" const"` for a const member function, function.cpp:254, 276. -/
def maybeConst (F : Func) : Str := if F.isConst then c!" const" else []

/-- `function_pointer_type`, function.cpp:247-269. -/
def functionPointerType (F : Func) : Str :=
  let pre := match F.method with
    | some m => if m.isStatic then [] else classQualifiedName E (E.cls m.parent) ++ c!"::"
    | none => []
  fixBooleanTypes (stdTy E F.ret ++ c!" (" ++ pre ++ c!"*)(" ++ functionArguments E F ++ c!")" ++ maybeConst F)

/-- `function_qualified_name`, function.cpp:273-283. -/
def functionQualifiedName (F : Func) (omitReturnType : Bool := false) : Str :=
  fixBooleanTypes ((if omitReturnType then [] else stdTy E F.ret ++ c!" ") ++ stdName E (F.qname ++ functionTemplateText E F) ++ c!"(" ++
    functionArguments E F ++ c!")" ++ maybeConst F)

/-- `get_type_dependencies(FunctionDecl)`, function.cpp:294-312. -/
def functionTypes (F : Func) : List Ty :=
  F.ret :: F.params.map (·.ty) ++
    (if F.templated = .nonTemplate then []
     else match F.targs with
      | some as => as.filterMap TArg.type?
      | none => [])

end Binder
