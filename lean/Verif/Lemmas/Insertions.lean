import Verif.Model.Run

/-!
# The insertion operators of a program matter only for `__str__`
-/

namespace Binder

open Cxx

/-- The environment with other insertion operators. -/
def Cxx.Env.withInsertions (E : Env) (l : List Func) : Env := { E with insertions := l }

section
variable (E : Env) (l : List Func)

theorem ins_stdName : stdName (E.withInsertions l) = stdName E := rfl
theorem ins_cls : (E.withInsertions l).cls = E.cls := rfl
theorem ins_cfg : (E.withInsertions l).cfg = E.cfg := rfl
theorem ins_nsOf : nsOf (E.withInsertions l) = nsOf E := rfl
theorem ins_classQualifiedName : classQualifiedName (E.withInsertions l) = classQualifiedName E := rfl
theorem ins_builtinDecl : builtinDecl (E.withInsertions l) = builtinDecl E := rfl
theorem ins_bannedDecl : bannedDecl (E.withInsertions l) = bannedDecl E := rfl
theorem ins_functionQualifiedName : functionQualifiedName (E.withInsertions l) = functionQualifiedName E := rfl
theorem ins_isConstOverload : isConstOverload (E.withInsertions l) = isConstOverload E := rfl
theorem ins_skipEnum : skipEnum (E.withInsertions l) = skipEnum E := rfl

theorem ins_skipClassF (n : Nat) : skipClassF (E.withInsertions l) n = skipClassF E n := by
  induction n with
  | zero => rfl
  | succ n ih => funext i; rw [skipClassF, skipClassF, ih]; rfl

theorem ins_skipClass : skipClass (E.withInsertions l) = skipClass E := by
  funext i; rw [skipClass, skipClass, ins_skipClassF]; rfl

theorem ins_skipTy : skipTy (E.withInsertions l) = skipTy E := by
  funext t; rw [skipTy, skipTy, ins_skipClass]

theorem ins_skipFunction : skipFunction (E.withInsertions l) = skipFunction E := by
  funext F; rw [skipFunction, skipFunction, ins_skipTy]; rfl

theorem ins_bindClass : bindClass (E.withInsertions l) = bindClass E := by
  funext i; rw [bindClass, bindClass, ins_skipTy]; rfl

theorem ins_bindFunctionAsked : bindFunctionAsked (E.withInsertions l) = bindFunctionAsked E := by
  funext F; unfold bindFunctionAsked bindTy; rw [ins_bindClass]; rfl

theorem ins_tyBindableWith (r : Nat → Bool) : tyBindableWith (E.withInsertions l) r = tyBindableWith E r := by
  funext t
  fun_induction tyBindableWith E r t <;> simp_all [tyBindableWith] <;> rfl

theorem ins_classBindableF (n : Nat) : classBindableF (E.withInsertions l) n = classBindableF E n := by
  induction n with
  | zero => rfl
  | succ n ih => funext i; rw [classBindableF, classBindableF, ih, ins_tyBindableWith]; rfl

theorem ins_classBindable : classBindable (E.withInsertions l) = classBindable E := by
  funext i; rw [classBindable, classBindable, ins_classBindableF]; rfl

theorem ins_tyBindable : tyBindable (E.withInsertions l) = tyBindable E := by
  funext t; rw [tyBindable, tyBindable, ins_tyBindableWith, ins_classBindable]

theorem ins_functionBindable : functionBindable (E.withInsertions l) = functionBindable E := by
  funext F; rw [functionBindable, functionBindable, ins_tyBindable]; rfl

theorem ins_fieldBindable : fieldBindable (E.withInsertions l) = fieldBindable E := by
  funext F; rw [fieldBindable, fieldBindable, ins_tyBindable]

theorem ins_tyRequests : tyRequests (E.withInsertions l) = tyRequests E := by
  funext t
  fun_induction tyRequests E t <;> simp_all [tyRequests, ins_skipTy] <;> rfl

theorem ins_bindFunctionRequests : bindFunctionRequests (E.withInsertions l) = bindFunctionRequests E := by
  funext F; rw [bindFunctionRequests, bindFunctionRequests, ins_tyRequests]

theorem ins_callbackNeededF (n : Nat) : callbackNeededF (E.withInsertions l) n = callbackNeededF E n := by
  induction n with
  | zero => rfl
  | succ n ih => funext i; rw [callbackNeededF, callbackNeededF, ih, ins_functionBindable]; rfl

theorem ins_callbackConstructibleF (n : Nat) : callbackConstructibleF (E.withInsertions l) n = callbackConstructibleF E n := by
  have hp : pureBlocked (E.withInsertions l) = pureBlocked E := by
    funext m; rw [pureBlocked, pureBlocked, ins_functionBindable, ins_skipFunction]
  induction n with
  | zero => rfl
  | succ n ih => funext i; rw [callbackConstructibleF, callbackConstructibleF, ih, hp]; rfl

theorem ins_trampoline : trampoline (E.withInsertions l) = trampoline E := by
  funext i
  rw [trampoline, trampoline, callbackNeeded, callbackNeeded, callbackConstructible, callbackConstructible, ins_callbackNeededF,
    ins_callbackConstructibleF]
  rfl

theorem ins_dataMembers : dataMembers (E.withInsertions l) = dataMembers E := by
  funext i
  unfold dataMembers usedFields ownFields
  rw [ins_fieldBindable]
  rfl

theorem ins_memberFunctions : memberFunctions (E.withInsertions l) = memberFunctions E := by
  have h : memberWanted (E.withInsertions l) = memberWanted E := by
    funext m; rw [memberWanted, memberWanted, ins_functionBindable, ins_skipFunction]; rfl
  funext i
  unfold memberFunctions
  rw [h]
  congr 1
  rw [ins_cls]
  congr 1
  funext m
  cases m <;> simp only [memberItems, h]

theorem ins_templateBasesF (n : Nat) : templateBasesF (E.withInsertions l) n = templateBasesF E n := by
  induction n with
  | zero => rfl
  | succ n ih =>
    funext i
    have h : templateBaseItems (E.withInsertions l) = templateBaseItems E := by
      funext r b
      unfold templateBaseItems
      rw [ins_skipClass, ins_dataMembers, ins_memberFunctions]
    rw [templateBasesF, templateBasesF, ih, h]
    rfl

theorem ins_templateBases : templateBases (E.withInsertions l) = templateBases E := by
  funext i; rw [templateBases, templateBases, ins_templateBasesF]; rfl

theorem ins_baseDefaultsF (n : Nat) : baseDefaultsF (E.withInsertions l) n = baseDefaultsF E n := by
  induction n with
  | zero => rfl
  | succ n ih => funext i; rw [baseDefaultsF, baseDefaultsF, ih]; rfl

theorem ins_ctorItems : ctorItems (E.withInsertions l) = ctorItems E := by
  funext i
  have h1 : ownCtors (E.withInsertions l) = ownCtors E := by
    funext C; rw [ownCtors, ownCtors, ins_functionBindable, ins_skipFunction]
  have h2 : inheritedCtors (E.withInsertions l) = inheritedCtors E := by
    funext C; rw [inheritedCtors, inheritedCtors, ins_functionBindable]
  rw [ctorItems, ctorItems, ins_trampoline, h1, h2, baseDefaults, baseDefaults, ins_baseDefaultsF]
  rfl

theorem ins_itemRequests : itemRequests (E.withInsertions l) = itemRequests E := by
  funext x; cases x <;> simp only [itemRequests, ins_tyRequests, ins_bindFunctionRequests]

theorem ins_boundBases : boundBases (E.withInsertions l) = boundBases E := by
  funext C
  rw [boundBases, boundBases, ins_classBindable, ins_skipClass]
  rfl

theorem ins_nestedBound : nestedBound (E.withInsertions l) = nestedBound E := by
  funext C
  rw [nestedBound, nestedBound, ins_classBindable]
  rfl

theorem reprItems_requests (i : Nat) : (reprItems E i).flatMap (itemRequests E) = [] := by
  unfold reprItems
  dsimp only
  split
  · rfl
  · split <;> rfl

theorem ins_classItems (i : Nat) : (classItems (E.withInsertions l) i).flatMap (itemRequests (E.withInsertions l)) =
    (classItems E i).flatMap (itemRequests E) := by
  unfold classItems
  simp only [List.flatMap_append, reprItems_requests]
  rw [ins_itemRequests, ins_ctorItems, ins_dataMembers, ins_memberFunctions, ins_templateBases]
  rfl

theorem ins_requests (n i : Nat) : (bindClassTextF (E.withInsertions l) n i).requests = (bindClassTextF E n i).requests := by
  induction n generalizing i with
  | zero => rfl
  | succ n ih =>
    rw [bindClassTextF, bindClassTextF]
    by_cases hb : builtinDecl E (E.cls i).qname = true
    · have hb' : builtinDecl (E.withInsertions l) ((E.withInsertions l).cls i).qname = true := hb
      rw [if_pos hb, if_pos hb']
    · have hb' : ¬ builtinDecl (E.withInsertions l) ((E.withInsertions l).cls i).qname = true := hb
      rw [if_neg hb, if_neg hb']
      simp only [ins_cls, ins_cfg, ins_stdName]
      cases E.cfg.binders (stdName E (E.cls i).qname) with
      | some b => rfl
      | none => simp only [ins_classItems, List.flatMap_map, ih, ins_boundBases, ins_tyRequests, ins_nestedBound]

theorem ins_classRequests (i : Nat) : (classOutput (E.withInsertions l) i).requests = (classOutput E i).requests := ins_requests E l _ i

end

end Binder
