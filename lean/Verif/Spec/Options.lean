import Verif.Spec.Config

/-!
# Specification: options of the command line as lines of the configuration file
-/

namespace Binder.Spec

/-- A namespace as it can be written in a configuration file: on one line, without spaces, not ended by a carriage return. -/
structure NamespaceWord (n : Str) : Prop where
  space : ' ' ∉ n
  line : '\n' ∉ n
  cr : n.getLast? ≠ some '\r'

/-- The lines of a configuration file that say what `--bind b` for each `b`, and `--skip s` for each `s`, say. -/
def optionLines (bind skip : List Str) : Str :=
  bind.flatMap (fun b => c!"+namespace " ++ b ++ c!"\n") ++ skip.flatMap (fun s => c!"-namespace " ++ s ++ c!"\n")

end Binder.Spec
