import Verif.Lemmas.BoolAppend
import Verif.Lemmas.FileSystem
import Verif.Model.Function
import Verif.Spec.Function

/-! Facts about the text pieces of a function binding. -/

namespace Binder

open Cxx

variable (E : Env)

theorem commaSep_eq : ∀ xs : List Str, commaSep xs = Spec.listText xs
  | [] => rfl
  | [x] => by simp [commaSep, Spec.listText, List.intercalate]
  | x :: y :: xs => by
    have h := commaSep_eq (y :: xs)
    rw [commaSep, h]
    · simp [Spec.listText, List.intercalate]
    · simp

theorem stdName_fix (s : Str) : fixBooleanTypes (stdName E s) = stdName E s := by
  simp only [stdName, standardName]; exact fixBool_fixBool _

theorem stdTy_fix (t : Ty) : fixBooleanTypes (stdTy E t) = stdTy E t := by
  unfold stdTy; split
  · rename_i h; rw [h]; decide
  · exact stdName_fix E _

theorem fixBool_commaSep : ∀ xs : List Str, fixBooleanTypes (commaSep xs) = commaSep (xs.map fixBooleanTypes)
  | [] => by decide
  | [x] => rfl
  | x :: y :: xs => by
    have h := fixBool_commaSep (y :: xs)
    have e : commaSep (x :: y :: xs) = x ++ c!", " ++ commaSep (y :: xs) := by rw [commaSep]; simp
    rw [e, fixBool_append_seps c!", " (by decide) (by decide), h]
    simp [commaSep]

theorem argName_no_underscore (i : Nat) : '_' ∉ argName i := by
  simp only [argName, List.mem_append, List.mem_singleton, not_or]
  exact ⟨by decide, natStr_no_underscore i⟩

theorem lambdaParam_fix (p : Param × Nat) : fixBooleanTypes (lambdaParam E p) = lambdaParam E p := by
  have key : ∀ s : Str, '_' ∉ s → fixBooleanTypes (stdTy E p.1.ty ++ c!" " ++ s) = stdTy E p.1.ty ++ c!" " ++ s := by
    intro s hs
    rw [fixBool_append_seps c!" " (by decide) (by decide), stdTy_fix, fixBool_no_underscore s hs]
  have hn := argName_no_underscore p.2
  unfold lambdaParam
  split
  · split
    · rw [List.append_assoc (_ ++ _)]; exact key _ (by simp only [List.mem_append, not_or]; exact ⟨by decide, hn⟩)
    · rw [List.append_assoc (_ ++ _)]; exact key _ (by simp only [List.mem_append, not_or]; exact ⟨by decide, hn⟩)
  · rw [List.append_assoc (_ ++ _)]; exact key _ (by simpa using hn)

theorem map_fix {α} (f : α → Str) (h : ∀ a, fixBooleanTypes (f a) = f a) (xs : List α) :
    fixBooleanTypes (commaSep (xs.map f)) = Spec.listText (xs.map f) := by
  rw [fixBool_commaSep, List.map_map, commaSep_eq]
  congr 1
  exact List.map_congr_left (fun a _ => h a)

theorem functionArguments_eq (F : Func) : functionArguments E F = Spec.listText (F.params.map fun p => stdTy E p.ty) :=
  map_fix (fun p : Param => stdTy E p.ty) (fun p => stdTy_fix E p.ty) _

theorem lambdaArguments_fst (F : Func) (k : Nat) :
    (lambdaArguments E F k).1 = Spec.listText (((F.params.zipIdx).take k).map (lambdaParam E)) :=
  map_fix _ (lambdaParam_fix E) _

theorem take_zipIdx_names (ps : List Param) (k : Nat) (h : k ≤ ps.length) :
    ((ps.zipIdx).take k).map (fun p => argName p.2) = Spec.argNames k := by
  apply List.ext_getElem
  · simp [Spec.argNames]; omega
  · intro i h1 h2
    simp [Spec.argNames, argName, natStr]

theorem lambdaArguments_snd (F : Func) (k : Nat) (h : k ≤ F.params.length) :
    (lambdaArguments E F k).2 = Spec.listText (Spec.argNames k) := by
  simp only [lambdaArguments, commaSep_eq, take_zipIdx_names F.params k h]

theorem overloadArguments_fst (F : Func) :
    (overloadArguments E F).1 = Spec.listText ((F.params.zipIdx).map fun p => stdTy E p.1.ty ++ c!" " ++ argName p.2) := by
  apply map_fix (fun p : Param × Nat => stdTy E p.1.ty ++ c!" " ++ argName p.2)
  intro p
  rw [fixBool_append_seps c!" " (by decide) (by decide), stdTy_fix, fixBool_no_underscore _ (argName_no_underscore p.2)]

theorem fix_listText (xs : List Str) (h : ∀ x ∈ xs, fixBooleanTypes x = x) :
    fixBooleanTypes (Spec.listText xs) = Spec.listText xs := by
  rw [← commaSep_eq, fixBool_commaSep]; congr 1
  exact (List.map_congr_left (g := id) (fun a ha => h a ha)).trans (List.map_id _)

/-- The class prefix of a pointer to member. -/
def pointerClass (F : Func) : Str :=
  match F.method with
  | some m => if m.isStatic then [] else classQualifiedName E (E.cls m.parent) ++ c!"::"
  | none => []

theorem pointerClass_fix (F : Func) (b : Str) :
    fixBooleanTypes (pointerClass E F ++ c!"*)(" ++ b) = pointerClass E F ++ c!"*)(" ++ fixBooleanTypes b := by
  unfold pointerClass
  cases F.method with
  | none => simpa using fixBool_seps_left c!"*)(" (by decide) b
  | some m =>
    simp only
    split
    · simpa using fixBool_seps_left c!"*)(" (by decide) b
    · have := fixBool_append_seps c!"::*)(" (by decide) (by decide) (classQualifiedName E (E.cls m.parent)) b
      rw [classQualifiedName, stdName_fix] at this
      simpa [classQualifiedName] using this

theorem functionPointerType_eq (F : Func) :
    functionPointerType E F = stdTy E F.ret ++ c!" (" ++ pointerClass E F ++ c!"*)(" ++ functionArguments E F ++ c!")" ++
      maybeConst F := by
  have hargs : fixBooleanTypes (functionArguments E F) = functionArguments E F := fixBool_fixBool _
  have hmc : fixBooleanTypes (maybeConst F) = maybeConst F := by unfold maybeConst; split <;> decide
  have e : functionPointerType E F = fixBooleanTypes (stdTy E F.ret ++ c!" (" ++ (pointerClass E F ++ c!"*)(" ++
      (functionArguments E F ++ c!")" ++ maybeConst F))) := by
    simp only [functionPointerType, pointerClass, List.append_assoc]; rfl
  rw [e, fixBool_append_seps c!" (" (by decide) (by decide), stdTy_fix, pointerClass_fix,
    fixBool_append_seps c!")" (by decide) (by decide), hargs, hmc]
  simp only [List.append_assoc]

theorem listText_cons (x : Str) (xs : List Str) :
    Spec.listText (x :: xs) = x ++ (if xs.length ≠ 0 then c!", " else []) ++ Spec.listText xs := by
  cases xs <;> simp [Spec.listText, List.intercalate]

open Spec

/-- The `def` statement for the first `k` arguments. -/
def overloadDef (F : Func) (k : Nat) (parent : Option Nat) (lam : Bool) : Def :=
  { isStatic := F.isStatic
    pyName := boundName E F
    callable := if k = F.params.length && !(lam || F.isVariadic) then directCallable E F parent else lambdaCallable E F k parent
    doc := if k = F.params.length && !(lam || F.isVariadic) then functionDoc E F else []
    policy := policyFor E.cfg F.isInstance (returnKind F.ret)
    keywords := (F.params.take k).map (·.name)
    guard := if E.cfg.defaultCallGuard = [] then none else some E.cfg.defaultCallGuard }

theorem returnKind_head : ∀ t : Ty, returnKind t = returnKind t.head
  | .const t => by rw [returnKind, Ty.head]; exact returnKind_head t
  | .sugar _ t => by rw [returnKind, Ty.head]; exact returnKind_head t
  | .basic _ | .dep _ | .ptr _ | .lref _ | .rref _ | .arr _ | .fn _ _ | .record _ | .enum _ => rfl

theorem head_cases : ∀ t : Ty, (∀ u, t.head ≠ .const u) ∧ (∀ k u, t.head ≠ .sugar k u)
  | .const t => by rw [Ty.head]; exact head_cases t
  | .sugar _ t => by rw [Ty.head]; exact head_cases t
  | .basic _ | .dep _ | .ptr _ | .lref _ | .rref _ | .arr _ | .fn _ _ | .record _ | .enum _ => by simp [Ty.head]

theorem returnKind_pointer (t : Ty) : (returnKind t = some .pointer ↔ t.isPointer = true) ∧
    (returnKind t = some .lvalueReference ↔ t.isLRef = true) ∧ (returnKind t = some .rvalueReference ↔ t.isRRef = true) := by
  rw [returnKind_head]
  have := head_cases t
  cases h : t.head <;> simp_all [Ty.isPointer, Ty.isLRef, Ty.isRRef, returnKind]

theorem returnPolicy_eq (F : Func) :
    returnPolicy E F = ((policyFor E.cfg F.isInstance (returnKind F.ret)).map fun p => c!", " ++ p).getD [] := by
  have h := returnKind_pointer F.ret
  have h2 : returnKind F.ret = none ↔ (F.ret.isPointer = false ∧ F.ret.isLRef = false ∧ F.ret.isRRef = false) := by
    cases hk : returnKind F.ret with
    | none => simp [hk] at h; simp [h]
    | some x => cases x <;> simp [hk] at h <;> simp [h]
  unfold returnPolicy
  cases hk : returnKind F.ret with
  | none =>
    have := h2.1 hk
    simp [this, policyFor]
  | some x =>
    cases x <;> simp [hk] at h <;> cases hi : F.isInstance <;> simp [h, policyFor]

theorem bindOverload_eq (F : Func) (k : Nat) (parent : Option Nat) (lam : Bool) :
    bindOverload E F k parent (lam || F.isVariadic) = (overloadDef E F k parent lam).text := by
  have hp := returnPolicy_eq E F
  have ha : argAnnotations F k = (((F.params.take k).map (·.name)).map fun k => c!", pybind11::arg(\"" ++ k ++ c!"\")").flatten := by
    simp [argAnnotations, List.flatMap_def, List.map_map, Function.comp_def]
  have hg : callGuard E = ((if E.cfg.defaultCallGuard = [] then none else some E.cfg.defaultCallGuard).map
      fun g => c!", pybind11::call_guard<" ++ g ++ c!">()").getD [] := by
    unfold callGuard
    cases E.cfg.defaultCallGuard <;> simp
  unfold bindOverload Def.text overloadDef
  by_cases hc : (k = F.params.length && !(lam || F.isVariadic)) = true
  · simp only [hc, if_true, hp, ha, hg]
  · simp only [hc, hp, ha, hg]; rfl

theorem isFunctionTy_iff : ∀ t : Ty, isFunctionTy t = true ↔ IsFunction t
  | .const t => by
    rw [isFunctionTy, isFunctionTy_iff t]; exact ⟨.const, fun h => by cases h; assumption⟩
  | .ptr t => by
    rw [isFunctionTy, isFunctionTy_iff t]; exact ⟨.ptr, fun h => by cases h; assumption⟩
  | .lref t => by
    rw [isFunctionTy, isFunctionTy_iff t]; exact ⟨.lref, fun h => by cases h; assumption⟩
  | .rref t => by
    rw [isFunctionTy, isFunctionTy_iff t]; exact ⟨.rref, fun h => by cases h; assumption⟩
  | .fn _ _ => by simp only [isFunctionTy, true_iff]; exact .fn
  | .basic _ | .dep _ | .arr _ | .record _ | .enum _ | .sugar _ _ => by
    simp only [isFunctionTy]; exact ⟨fun h => (by cases h), fun h => by cases h⟩

theorem firstDefault_le : ∀ ps : List Param, firstDefault ps ≤ ps.length
  | [] => Nat.le_refl _
  | p :: ps => by
    have := firstDefault_le ps
    rw [firstDefault]; split <;> simp; omega

theorem firstDefault_before : ∀ (ps : List Param) (i : Nat) (h : i < ps.length), i < firstDefault ps → (ps[i]).hasDefault = false
  | p :: ps, 0, _, hi => by
    rw [firstDefault] at hi
    split at hi
    · omega
    · rename_i hn; simpa using hn
  | p :: ps, i + 1, h, hi => by
    rw [firstDefault] at hi
    split at hi
    · omega
    · simpa using firstDefault_before ps i (by simpa using h) (by omega)

theorem firstDefault_at : ∀ (ps : List Param) (h : firstDefault ps < ps.length), (ps[firstDefault ps]).hasDefault = true
  | p :: ps, h => by
    by_cases hp : p.hasDefault = true
    · have : firstDefault (p :: ps) = 0 := by simp [firstDefault, hp]
      simp [this, hp]
    · have e : firstDefault (p :: ps) = firstDefault ps + 1 := by simp [firstDefault, hp]
      have := firstDefault_at ps (by rw [e] at h; simpa using h)
      simp [e, this]

/-- There is exactly one smallest arity, and the program computes it. -/
theorem minArity_iff (F : Func) (d : Nat) : MinArity F.params d ↔ d = firstArity F := by
  have hany : (F.params.any (fun p => isFunctionTy p.ty.canon) = true) ↔ ∃ p ∈ F.params, IsFunction p.ty.canon := by
    simp [isFunctionTy_iff]
  unfold MinArity firstArity
  by_cases hf : ∃ p ∈ F.params, IsFunction p.ty.canon
  · rw [if_pos (hany.2 hf)]
    constructor
    · intro h; exact h.2.1 hf
    · rintro rfl; exact ⟨Nat.le_refl _, fun _ => rfl, fun h => absurd hf h⟩
  · rw [if_neg (fun h => hf (hany.1 h))]
    constructor
    · rintro ⟨h1, _, h3⟩
      obtain ⟨h3, h4⟩ := h3 hf
      rcases Nat.lt_trichotomy d (firstDefault F.params) with h | h | h
      · have hl := firstDefault_le F.params
        have := firstDefault_before F.params d (by omega) h
        rw [h4 (by omega)] at this
        exact absurd this (by decide)
      · exact h
      · have hl : firstDefault F.params < F.params.length := by omega
        have := firstDefault_at F.params hl
        rw [h3 _ hl h] at this
        exact absurd this (by decide)
    · rintro rfl
      exact ⟨firstDefault_le _, fun h => absurd h hf, fun _ => ⟨firstDefault_before _, firstDefault_at _⟩⟩

theorem firstArity_le (F : Func) : firstArity F ≤ F.params.length := by
  unfold firstArity; split
  · exact Nat.le_refl _
  · exact firstDefault_le _

/-- The overloads of a function, one for each arity. -/
theorem bindFunctionText_eq (module : Str) (F : Func) (parent : Option Nat) (lam : Bool) :
    bindFunctionText E module F parent lam =
      (if E.opts.annotateFunctions then signatureComment E F false else []) ++
      (((arities (firstArity F) F.params.length).map fun k => overloadDef E F k parent lam).map
        fun x => module ++ x.text ++ c!"\n").flatten := by
  unfold bindFunctionText
  congr 1
  rw [List.flatMap_def, List.map_map]
  congr 1
  apply List.map_congr_left
  intro k _
  simp only [Function.comp_apply, bindOverload_eq]

end Binder
