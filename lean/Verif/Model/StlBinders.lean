import Verif.Model.Class

/-!
# Model of the binders shipped in `source/stl_binders.hpp`

Line numbers refer to `/repo/source/stl_binders.hpp` unless another file is named. These templates are run by the generated module: the
statement written by `bind_with` (class.cpp:980-1000) passes them the module and one text for each template argument of the class. What is
modelled is the name of the Python class that they make, its C++ type and its holder; for the methods that `vector_binder` adds see
`Model/VectorMembers.lean`; the members that pybind11 adds are not modelled.
-/

namespace Binder

open Cxx

variable (E : Env)

/-- The text passed for a template argument, class.cpp:994-996. -/
def binderArgument (a : TArg) : Str := fixBooleanTypes (mangleTypeName (stdName E a.text) true)

/-- `vector_binder`, lines 31-37: the name of the Python class; the second text is ignored. -/
def vectorBinderName (name _allocator : Str) : Str := c!"vector_" ++ name

/-- `maybe_extra` of `map_binder`, lines 71-73. -/
def mapBinderExtra (key value comparator allocator : Str) : Str :=
  (if comparator = c!"std_less_" ++ key ++ c!"_t" then [] else c!"_" ++ comparator) ++
  (if allocator = c!"std_allocator_std_pair_const_" ++ key ++ c!"_" ++ value ++ c!"_t" then [] else c!"_" ++ allocator)

/-- `map_binder`, lines 65-75: the name of the Python class. -/
def mapBinderName (key value comparator allocator : Str) : Str :=
  c!"map_" ++ key ++ c!"_" ++ value ++ mapBinderExtra key value comparator allocator

/-- The Python class made by the statement for class `C` with the given binder; `none` for a binder that is not one of the two, and for a
number of texts for which the call does not compile. -/
def shippedName (binder : Str) (C : Record) : Option Str :=
  match (C.targs.getD []).map (binderArgument E) with
  | [n, a] => if binder = c!"binder::vector_binder" then some (vectorBinderName n a) else none
  | [k, v, c, a] => if binder = c!"binder::map_binder" then some (mapBinderName k v c a) else none
  | _ => none

/-- The C++ type of the Python class made by the statement: `Vector`, line 34, and `Map`, line 67, with the template arguments of the statement. -/
def shippedType (binder : Str) (C : Record) : Option Str :=
  if binder = c!"binder::vector_binder" then some (c!"std::vector" ++ stdName E (classTemplateText C))
  else if binder = c!"binder::map_binder" then some (c!"std::map" ++ stdName E (classTemplateText C))
  else none

/-- `holder_type`, lines 35 and 68, for that type. -/
def shippedHolder (type : Str) : Str := c!"std::shared_ptr<" ++ type ++ c!">"

end Binder
