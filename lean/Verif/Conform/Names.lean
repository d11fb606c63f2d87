import Verif.Conform.Base

/-! # Conformance: the class names of `/repo/test/T42.stl.names*.hpp`

The recorded results of these tests depend on the members of the standard library they were made with, so only the names are compared:
the C++ name (`classQualifiedName`) and the Python name (`pythonClassName`) of each instance of a standard container, as they stand in the
`pybind11::class_` lines of the reference files. -/

namespace Binder.Conform.Names
open Binder Cxx

/-- A template-id as the compiler prints it: a space between two closing brackets. -/
def tmpl (n : String) (as : List String) : String :=
  let a := String.intercalate ", " as
  "std::" ++ n ++ "<" ++ a ++ (if a.endsWith ">" then " >" else ">")

/-- A sequence with its default allocator. -/
def seq (n t : String) : String := tmpl n [t, tmpl "allocator" [t]]

/-- `std::string` as the compiler prints it. -/
def str : String := "std::basic_string<char>"

/-- `pair<const K, V>` and its allocator. -/
def pairAlloc (k v : String) : String := tmpl "allocator" [tmpl "pair" ["const " ++ k, v]]

/-- The default arguments of the containers. -/
def ordered (k : String) (v : Option String) : List String :=
  match v with
  | some v => [k, v, tmpl "less" [k], pairAlloc k v]
  | none => [k, tmpl "less" [k], tmpl "allocator" [k]]
def hashed (k : String) (v : Option String) : List String :=
  match v with
  | some v => [k, v, tmpl "hash" [k], tmpl "equal_to" [k], pairAlloc k v]
  | none => [k, tmpl "hash" [k], tmpl "equal_to" [k], tmpl "allocator" [k]]

/-- An instance of a standard class template. -/
def inst (n : String) (as : List String) : Record :=
  { record c!"<x>" c!"std::" n.toList [] with targs := some (as.map fun a => ⟨a.toList, .type tInt⟩) }

def E : Env := env {} [] [] [] [] []

/-- The C++ and the Python name of an instance. -/
def names (n : String) (as : List String) : String × String :=
  (String.ofList (classQualifiedName E (inst n as)), String.ofList (pythonClassName E (inst n as)))

/-- The arguments of a sequence of `t`. -/
def alloc (t : String) : List String := [t, tmpl "allocator" [t]]

-- T42.stl.names.ref.cpp
#guard names "list" (alloc "double") = ("std::list<double>", "list_double_t")
#guard names "forward_list" (alloc "float") = ("std::forward_list<float>", "forward_list_float_t")
#guard names "vector" (alloc "double") = ("std::vector<double>", "vector_double_t")
#guard names "deque" (alloc "int") = ("std::deque<int>", "deque_int_t")
#guard names "vector" (alloc (seq "vector" "double")) = ("std::vector<std::vector<double>>", "vector_std_vector_double_t")
#guard names "vector" (alloc (seq "vector" (seq "vector" "double"))) =
  ("std::vector<std::vector<std::vector<double>>>", "vector_std_vector_std_vector_double_t")
#guard names "vector" (alloc (seq "list" (seq "forward_list" (seq "deque" "double")))) =
  ("std::vector<std::list<std::forward_list<std::deque<double>>>>", "vector_std_list_std_forward_list_std_deque_double_t")

-- T42.stl.names.set.ref.cpp
#guard names "set" (ordered "float" none) = ("std::set<float>", "set_float_t")
#guard names "unordered_set" (hashed "float" none) = ("std::unordered_set<float>", "unordered_set_float_t")

-- T42.stl.names.map.ref.cpp, multi, multimap, multiset
#guard names "map" (ordered "float" (some "int")) = ("std::map<float,int>", "map_float_int_t")
#guard names "unordered_map" (hashed "float" (some "int")) = ("std::unordered_map<float,int>", "unordered_map_float_int_t")
#guard names "multimap" (ordered "float" (some "int")) = ("std::multimap<float,int>", "multimap_float_int_t")
#guard names "unordered_multimap" (hashed "float" (some "int")) = ("std::unordered_multimap<float,int>", "unordered_multimap_float_int_t")
#guard names "multiset" (ordered "float" none) = ("std::multiset<float>", "multiset_float_t")
#guard names "unordered_multiset" (hashed "float" none) = ("std::unordered_multiset<float>", "unordered_multiset_float_t")
#guard names "hash" [str] = ("std::hash<std::string>", "hash_std_string_t")
#guard names "equal_to" [str] = ("std::equal_to<std::string>", "equal_to_std_string_t")
#guard names "binary_function" [str, str, "bool"] =
  ("std::binary_function<std::string,std::string,bool>", "binary_function_std_string_std_string_bool_t")

end Binder.Conform.Names
