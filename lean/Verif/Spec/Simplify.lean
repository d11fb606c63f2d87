import Verif.Model.Simplify

/-!
# Independent specifications for the simplified names of standard containers
-/

namespace Binder.Spec

/-- Spaces only. -/
def Spaces (s : Str) : Prop := ∀ c ∈ s, c = ' '

/-- The text `s` matches the regular expression `ps`; `gs` are the groups before, `gs'` after. -/
inductive Fits : List Pat → List Str → Str → List Str → Prop
  | done (gs : List Str) : Fits [] gs [] gs
  | lit (l : Str) {ps : List Pat} {gs gs' : List Str} {s : Str} : Fits ps gs s gs' → Fits (.lit l :: ps) gs (l ++ s) gs'
  | back (n : Nat) {ps : List Pat} {gs gs' : List Str} {s : Str} : Fits ps gs s gs' → Fits (.back n :: ps) gs (gs.getD (n - 1) [] ++ s) gs'
  | spaces (b : Str) {ps : List Pat} {gs gs' : List Str} {s : Str} : Spaces b → Fits ps gs s gs' → Fits (.spaces :: ps) gs (b ++ s) gs'
  | group (g : Str) {ps : List Pat} {gs gs' : List Str} {s : Str} : Fits ps (gs ++ [g]) s gs' → Fits (.group :: ps) gs (g ++ s) gs'

/-- A container written with its default arguments, and the same container without them. The default arguments are those of the C++
standard: `std::allocator` of the element type, `std::less`, `std::hash` and `std::equal_to` of the key type. Blanks may stand where the
compiler puts them. -/
inductive DefaultArguments : Str → Str → Prop
  /-- `std::list<T>`, `std::deque<T>`, `std::vector<T>`, `std::forward_list<T>` -/
  | sequence (c T b1 b2 b3 : Str) (hc : c = c!"list" ∨ c = c!"deque" ∨ c = c!"vector" ∨ c = c!"forward_list")
      (h1 : Spaces b1) (h2 : Spaces b2) (h3 : Spaces b3) :
      DefaultArguments (c ++ c!"<" ++ T ++ c!"," ++ b1 ++ c!"std::allocator<" ++ T ++ b2 ++ c!">" ++ b3 ++ c!">") (c ++ c!"<" ++ T ++ c!">")
  /-- `std::set<T>`; `std::multiset<T>` ends in the same text -/
  | set (T b1 b2 b3 b4 b5 : Str) (h1 : Spaces b1) (h2 : Spaces b2) (h3 : Spaces b3) (h4 : Spaces b4) (h5 : Spaces b5) :
      DefaultArguments (c!"set<" ++ T ++ c!"," ++ b1 ++ c!"std::less<" ++ T ++ b2 ++ c!">," ++ b3 ++ c!"std::allocator<" ++ T ++ b4 ++ c!">" ++
        b5 ++ c!">") (c!"set<" ++ T ++ c!">")
  /-- `std::map<K,V>`, `std::multimap<K,V>` -/
  | map (c K V b1 b2 b3 b4 b5 b6 : Str) (hc : c = c!"map" ∨ c = c!"multimap") (h1 : Spaces b1) (h2 : Spaces b2) (h3 : Spaces b3) (h4 : Spaces b4)
      (h5 : Spaces b5) (h6 : Spaces b6) :
      DefaultArguments (c ++ c!"<" ++ K ++ c!"," ++ V ++ c!"," ++ b1 ++ c!"std::less<" ++ K ++ b2 ++ c!">," ++ b3 ++
        c!"std::allocator<std::pair<const " ++ K ++ c!", " ++ V ++ b4 ++ c!">" ++ b5 ++ c!">" ++ b6 ++ c!">") (c ++ c!"<" ++ K ++ c!"," ++ V ++ c!">")
  /-- `std::unordered_set<T>`, `std::unordered_multiset<T>` -/
  | unorderedSet (c T b1 b2 b3 b4 b5 : Str) (hc : c = c!"unordered_set" ∨ c = c!"unordered_multiset") (h1 : Spaces b1) (h2 : Spaces b2)
      (h3 : Spaces b3) (h4 : Spaces b4) (h5 : Spaces b5) :
      DefaultArguments (c ++ c!"<" ++ T ++ c!"," ++ b1 ++ c!"std::hash<" ++ T ++ c!">," ++ b2 ++ c!"std::equal_to<" ++ T ++ c!">," ++ b3 ++
        c!"std::allocator<" ++ T ++ b4 ++ c!">" ++ b5 ++ c!">") (c ++ c!"<" ++ T ++ c!">")
  /-- `std::unordered_map<K,V>`, `std::unordered_multimap<K,V>` -/
  | unorderedMap (c K V b0 b1 b2 b3 b4 b5 b6 b7 : Str) (hc : c = c!"unordered_map" ∨ c = c!"unordered_multimap") (h0 : Spaces b0) (h1 : Spaces b1)
      (h2 : Spaces b2) (h3 : Spaces b3) (h4 : Spaces b4) (h5 : Spaces b5) (h6 : Spaces b6) (h7 : Spaces b7) :
      DefaultArguments (c ++ c!"<" ++ K ++ c!"," ++ b0 ++ V ++ c!",std::hash<" ++ K ++ b1 ++ c!">," ++ b2 ++ c!"std::equal_to<" ++ K ++ b3 ++ c!">," ++
        b4 ++ c!"std::allocator<std::pair<const " ++ K ++ c!", " ++ V ++ b5 ++ c!">" ++ b6 ++ c!">" ++ b7 ++ c!">") (c ++ c!"<" ++ K ++ c!"," ++ V ++ c!">")

/-- Default arguments are dropped at any number of places. -/
inductive Dropped : Str → Str → Prop
  | same (s : Str) : Dropped s s
  | step {full short : Str} (before after : Str) {t : Str} : DefaultArguments full short → Dropped (before ++ short ++ after) t →
      Dropped (before ++ full ++ after) t

/-- The stream classes of the C++ standard that are instances of `basic_...` templates ([iostream.forward.overview]), and whether their
template has an allocator. -/
def streams : List (Str × Bool) :=
  [(c!"streambuf", false), (c!"istream", false), (c!"ostream", false), (c!"iostream", false), (c!"filebuf", false), (c!"ifstream", false),
   (c!"ofstream", false), (c!"fstream", false), (c!"stringbuf", true), (c!"istringstream", true), (c!"ostringstream", true),
   (c!"stringstream", true)]

/-- The character types with a name for every stream class, and how the names begin: `std::ostream`, `std::wostream`. -/
def charTypes : List (Str × Str) := [(c!"char", []), (c!"wchar_t", c!"w")]

/-- A stream class with all its arguments. -/
def streamFull (name : Str) (alloc : Bool) (char : Str) : Str :=
  c!"basic_" ++ name ++ c!"<" ++ char ++ c!",std::char_traits<" ++ char ++ c!">" ++ (if alloc then c!",std::allocator<" ++ char ++ c!">" else []) ++ c!">"

/-- A stream class with its default arguments left out. -/
def streamShort (name char : Str) : Str := c!"basic_" ++ name ++ c!"<" ++ char ++ c!">"

/-- The text `s` is the instance of a stream class, and `t` the name that the standard gives to it. -/
def StreamName (s t : Str) : Prop :=
  ∃ n ∈ streams, ∃ k ∈ charTypes, (s = streamFull n.1 n.2 k.1 ∨ s = streamShort n.1 k.1) ∧ t = k.2 ++ n.1

/-- The words that begin a container in the text. -/
def containerWords : List Str := [c!"list<", c!"deque<", c!"vector<", c!"set<", c!"map<"]

/-- The standard containers. -/
inductive Container where
  | list | deque | vector | forwardList | set | multiset | map | multimap
  | unorderedSet | unorderedMultiset | unorderedMap | unorderedMultimap

/-- The name of a container in namespace `std`. -/
def Container.word : Container → Str
  | .list => c!"list"
  | .deque => c!"deque"
  | .vector => c!"vector"
  | .forwardList => c!"forward_list"
  | .set => c!"set"
  | .multiset => c!"multiset"
  | .map => c!"map"
  | .multimap => c!"multimap"
  | .unorderedSet => c!"unordered_set"
  | .unorderedMultiset => c!"unordered_multiset"
  | .unorderedMap => c!"unordered_map"
  | .unorderedMultimap => c!"unordered_multimap"

/-- The arguments of a container of `K`, or from `K` to `V`, with the default arguments of the C++ standard. -/
def Container.allArguments (c : Container) (K V : Str) : Str :=
  match c with
  | .list | .deque | .vector | .forwardList => K ++ c!",std::allocator<" ++ K ++ c!">"
  | .set | .multiset => K ++ c!",std::less<" ++ K ++ c!">,std::allocator<" ++ K ++ c!">"
  | .map | .multimap => K ++ c!"," ++ V ++ c!",std::less<" ++ K ++ c!">,std::allocator<std::pair<const " ++ K ++ c!", " ++ V ++ c!">>"
  | .unorderedSet | .unorderedMultiset => K ++ c!",std::hash<" ++ K ++ c!">,std::equal_to<" ++ K ++ c!">,std::allocator<" ++ K ++ c!">"
  | .unorderedMap | .unorderedMultimap => K ++ c!"," ++ V ++ c!",std::hash<" ++ K ++ c!">,std::equal_to<" ++ K ++
      c!">,std::allocator<std::pair<const " ++ K ++ c!", " ++ V ++ c!">>"

/-- The arguments without the default ones. -/
def Container.arguments (c : Container) (K V : Str) : Str :=
  match c with
  | .map | .multimap | .unorderedMap | .unorderedMultimap => K ++ c!"," ++ V
  | _ => K

/-- The name of a type without template arguments, for example `int`, `ns::A` or `const A *`. -/
def SimpleType (s : Str) : Prop := '<' ∉ s ∧ '>' ∉ s ∧ ',' ∉ s ∧ s.head? ≠ some ' '

end Binder.Spec
