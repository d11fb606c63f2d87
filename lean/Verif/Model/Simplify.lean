import Verif.Basic.Str

/-!
# Model of `simplify_std_class_name`, `source/type.cpp`

`Env.simplify` is a parameter of the other models; this is the function the program uses.
-/

namespace Binder

/-- `std_typedef_map`, type.cpp:574-597. -/
def stdTypedefMap : List (Str × Str) :=
  [(c!"basic_iostream<char,std::char_traits<char>>", c!"iostream"),
   (c!"basic_ostream<char,std::char_traits<char>>", c!"ostream"),
   (c!"basic_istream<char,std::char_traits<char>>", c!"istream"),
   (c!"basic_ostream<wchar_t,std::char_traits<wchar_t>>", c!"wostream"),
   (c!"basic_istream<wchar_t,std::char_traits<wchar_t>>", c!"wistream"),
   (c!"basic_stringstream<char,std::char_traits<char>,std::allocator<char>>", c!"stringstream"),
   (c!"basic_istringstream<char,std::char_traits<char>,std::allocator<char>>", c!"istringstream"),
   (c!"basic_ostringstream<char,std::char_traits<char>,std::allocator<char>>", c!"ostringstream"),
   (c!"basic_filebuf<char,std::char_traits<char>>", c!"filebuf"),
   (c!"basic_stringbuf<char>", c!"stringbuf"),
   (c!"basic_ifstream<char,std::char_traits<char>>", c!"ifstream"),
   (c!"basic_ofstream<char,std::char_traits<char>>", c!"ofstream"),
   (c!"basic_stringbuf<char,std::char_traits<char>,std::allocator<char>>", c!"stringbuf"),
   (c!"basic_stringbuf<wchar_t,std::wchar_traits<wchar_t>,std::allocator<wchar_t>>", c!"wstringbuf"),
   (c!"basic_streambuf<char,std::char_traits<char>>", c!"streambuf"),
   (c!"basic_streambuf<wchar_t,std::char_traits<wchar_t>>", c!"wstreambuf")]

/-! ## Regular expressions -/

/-- The parts of the regular expressions in type.cpp:619-640: fixed text, `(.*)`, `\n`, and ` *`. -/
inductive Pat where
  | lit (s : Str)
  | group
  | back (n : Nat)
  | spaces
deriving DecidableEq

/-- The first of the given alternatives that succeeds. -/
def firstSome {α : Type} (f : Nat → Option α) : Nat → Option α
  | 0 => f 0
  | k + 1 => match f (k + 1) with
    | some a => some a
    | none => firstSome f k

/-- The number of spaces at the beginning. -/
def leadingSpaces : Str → Nat
  | ' ' :: s => leadingSpaces s + 1
  | _ => 0

/-- Match the whole text; the result is the text of the groups. `backref` of `llvm::Regex` tries the longest text first for every `*`.
`gs` are the groups so far. Simplification: the engine gives up after a large number of references to empty groups. -/
def matchWhole : List Pat → List Str → Str → Option (List Str)
  | [], gs, s => if s = [] then some gs else none
  | .lit l :: ps, gs, s => if l.isPrefixOf s then matchWhole ps gs (s.drop l.length) else none
  | .back n :: ps, gs, s =>
    let g := gs.getD (n - 1) []
    if g.isPrefixOf s then matchWhole ps gs (s.drop g.length) else none
  | .spaces :: ps, gs, s => firstSome (fun k => matchWhole ps gs (s.drop k)) (leadingSpaces s)
  | .group :: ps, gs, s => firstSome (fun k => matchWhole ps (gs ++ [s.take k]) (s.drop k)) s.length

/-- The longest match that starts at the beginning of the text: the groups and what follows the match. -/
def matchHere (ps : List Pat) (s : Str) : Option (List Str × Str) :=
  firstSome (fun k => (matchWhole ps [] (s.take k)).map fun gs => (gs, s.drop k)) s.length

/-- `llvm::Regex::match`: the leftmost match, and of those the longest: the text before it, the groups, the text after it. -/
def findMatch (ps : List Pat) : Str → Option (Str × List Str × Str)
  | [] => (matchHere ps []).map fun m => ([], m)
  | c :: s => match matchHere ps (c :: s) with
    | some m => some ([], m)
    | none => (findMatch ps s).map fun m => (c :: m.1, m.2)

/-- The parts of the replacement text: fixed text and `\n`. -/
inductive Sub where
  | lit (s : Str)
  | ref (n : Nat)
deriving DecidableEq

/-- The replacement text for given groups. -/
def expand (gs : List Str) (rs : List Sub) : Str :=
  rs.flatMap fun
    | .lit s => s
    | .ref n => gs.getD (n - 1) []

/-- `llvm::Regex::sub`: replace the first match. -/
def subst (p : List Pat × List Sub) (s : Str) : Str :=
  match findMatch p.1 s with
  | none => s
  | some (before, gs, after) => before ++ expand gs p.2 ++ after

/-- `regex_arg_map`, type.cpp:619-640. -/
def regexMap : List (List Pat × List Sub) :=
  [([.lit c!"list<", .group, .lit c!",", .spaces, .lit c!"std::allocator<", .back 1, .spaces, .lit c!">", .spaces, .lit c!">"],
    [.lit c!"list<", .ref 1, .lit c!">"]),
   ([.lit c!"deque<", .group, .lit c!",", .spaces, .lit c!"std::allocator<", .back 1, .spaces, .lit c!">", .spaces, .lit c!">"],
    [.lit c!"deque<", .ref 1, .lit c!">"]),
   ([.lit c!"vector<", .group, .lit c!",", .spaces, .lit c!"std::allocator<", .back 1, .spaces, .lit c!">", .spaces, .lit c!">"],
    [.lit c!"vector<", .ref 1, .lit c!">"]),
   ([.lit c!"set<", .group, .lit c!",", .spaces, .lit c!"std::less<", .back 1, .spaces, .lit c!">,", .spaces, .lit c!"std::allocator<", .back 1,
     .spaces, .lit c!">", .spaces, .lit c!">"],
    [.lit c!"set<", .ref 1, .lit c!">"]),
   ([.lit c!"forward_list<", .group, .lit c!",", .spaces, .lit c!"std::allocator<", .back 1, .spaces, .lit c!">", .spaces, .lit c!">"],
    [.lit c!"forward_list<", .ref 1, .lit c!">"]),
   ([.lit c!"map<", .group, .lit c!",", .group, .lit c!",", .spaces, .lit c!"std::less<", .back 1, .spaces, .lit c!">,", .spaces,
     .lit c!"std::allocator<std::pair<const ", .back 1, .lit c!", ", .back 2, .spaces, .lit c!">", .spaces, .lit c!">", .spaces, .lit c!">"],
    [.lit c!"map<", .ref 1, .lit c!",", .ref 2, .lit c!">"]),
   ([.lit c!"multiset<", .group, .lit c!",", .spaces, .lit c!"std::less<", .group, .lit c!">,", .spaces, .lit c!"std::allocator<", .group,
     .lit c!">>"],
    [.lit c!"multiset<", .ref 1, .lit c!" *>"]),
   ([.lit c!"multimap<", .group, .lit c!",", .group, .lit c!",", .spaces, .lit c!"std::less<", .back 1, .lit c!">,", .spaces,
     .lit c!"std::allocator<std::pair<const ", .back 1, .lit c!", ", .back 2, .spaces, .lit c!">", .spaces, .lit c!">", .spaces, .lit c!">"],
    [.lit c!"multimap<", .ref 1, .lit c!",", .ref 2, .lit c!">"]),
   ([.lit c!"unordered_set<", .group, .lit c!",", .spaces, .lit c!"std::hash<", .back 1, .lit c!">,std::equal_to<", .back 1,
     .lit c!">,std::allocator<", .back 1, .lit c!">>"],
    [.lit c!"unordered_set<", .ref 1, .lit c!">"]),
   ([.lit c!"unordered_map<", .group, .lit c!",", .spaces, .group, .lit c!",std::hash<", .back 1, .lit c!">,std::equal_to<", .back 1,
     .lit c!">,std::allocator<std::pair<const ", .back 1, .lit c!", ", .back 2, .spaces, .lit c!">", .spaces, .lit c!">", .spaces, .lit c!">"],
    [.lit c!"unordered_map<", .ref 1, .lit c!",", .ref 2, .lit c!">"]),
   ([.lit c!"unordered_multiset<", .group, .lit c!",", .spaces, .lit c!"std::hash<", .back 1, .lit c!">,", .spaces, .lit c!"std::equal_to<",
     .back 1, .lit c!">,", .spaces, .lit c!"std::allocator<", .back 1, .spaces, .lit c!">", .spaces, .lit c!">"],
    [.lit c!"unordered_multiset<", .ref 1, .lit c!">"]),
   ([.lit c!"unordered_multimap<", .group, .lit c!",", .spaces, .group, .lit c!",std::hash<", .back 1, .spaces, .lit c!">,", .spaces,
     .lit c!"std::equal_to<", .back 1, .spaces, .lit c!">,", .spaces, .lit c!"std::allocator<std::pair<const ", .back 1, .lit c!", ", .back 2,
     .spaces, .lit c!">", .spaces, .lit c!">", .spaces, .lit c!">"],
    [.lit c!"unordered_multimap<", .ref 1, .lit c!",", .ref 2, .lit c!">"])]

/-- One pass of the inner loop, type.cpp:648-651. -/
def simplifyPass (s : Str) : Str := regexMap.foldl (fun s p => subst p s) s

/-- The loop of type.cpp:645-654 with fuel; `res` is the text now, `previous` the length before. -/
def simplifyLoopF : Nat → Str → Nat → Option Str
  | 0, _, _ => none
  | n + 1, res, previous => if res.length = previous then some res else simplifyLoopF n (simplifyPass res) res.length

/-- `simplify_std_class_name_raw`, type.cpp:572-657, with fuel for the loop. -/
def simplifyStdF (n : Nat) (type : Str) : Option Str :=
  match stdTypedefMap.lookup type with
  | some r => some r
  | none => simplifyLoopF n type 0

/-- `simplify_std_class_name_raw`; by `C77_terminates` the fuel is always enough. -/
def simplifyStd (type : Str) : Str := (simplifyStdF (type.length + 2) type).getD type

end Binder
