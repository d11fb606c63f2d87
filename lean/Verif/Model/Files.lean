import Verif.Basic.Str
import Verif.Basic.StrSet
import Verif.Model.Config

/-!
# Model of the file-level helpers of `source/context.cpp`
-/

namespace Binder

/-- `generate_include_directives`, context.cpp:73-81: `includes` is the vector held by the `IncludeSet`. -/
def generateIncludeDirectives (c : Config) (includes : List Str) : Str :=
  (setOf includes).foldl (fun r i => if !(includeSkippingRequested c i) then r ++ (c!"#include " ++ i ++ c!"\n") else r) []

/-- The characters `file_name_prefix_for_binder` keeps, context.cpp:53-55. -/
def keptInFileName (x : Char) : Bool := isAlnum x || (c!"_/<>.").contains x

/-- `file_name_prefix_for_binder`, context.cpp:47-70: `include` is `relevant_include(decl)`, `ns` is
`namespace_from_named_decl(decl)`. -/
def fileNamePrefix (incl ns : Str) : Str :=
  let i := incl.filter keptInFileName
  let i := if i.length ≤ 2 then c!"<unknown/unknown.hh>" else i
  let i := Str.substr i 1 (i.length - 2)
  let i := if ns = c!"std" || beginsWith ns c!"std::" then
      c!"std/" ++ (if beginsWith i c!"bits/" then i.drop 5 else i) else i
  let i := replaceAll i c!".hh" []
  let i := replaceAll i c!".hpp" []
  let i := replaceAll i c!".h" []
  replaceAll i c!"." c!"_"

end Binder
