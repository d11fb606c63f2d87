import Verif.Lemmas.Insertions
import Verif.Spec.Comments

/-!
# The options for comments do not matter for decisions
-/

namespace Binder

open Cxx Spec

section
variable (E : Env) (k : CommentOptions)

theorem cmt_stdName : stdName (withComments E k) = stdName E := rfl
theorem cmt_cls : (withComments E k).cls = E.cls := rfl
theorem cmt_cfg : (withComments E k).cfg = E.cfg := rfl
theorem cmt_nsOf : nsOf (withComments E k) = nsOf E := rfl
theorem cmt_classQualifiedName : classQualifiedName (withComments E k) = classQualifiedName E := rfl
theorem cmt_builtinDecl : builtinDecl (withComments E k) = builtinDecl E := rfl
theorem cmt_bannedDecl : bannedDecl (withComments E k) = bannedDecl E := rfl
theorem cmt_functionQualifiedName : functionQualifiedName (withComments E k) = functionQualifiedName E := rfl
theorem cmt_isConstOverload : isConstOverload (withComments E k) = isConstOverload E := rfl
theorem cmt_skipEnum : skipEnum (withComments E k) = skipEnum E := rfl

theorem cmt_skipClassF (n : Nat) : skipClassF (withComments E k) n = skipClassF E n := by
  induction n with
  | zero => rfl
  | succ n ih => funext i; rw [skipClassF, skipClassF, ih]; rfl

theorem cmt_skipClass : skipClass (withComments E k) = skipClass E := by
  funext i; rw [skipClass, skipClass, cmt_skipClassF]; rfl

theorem cmt_skipTy : skipTy (withComments E k) = skipTy E := by
  funext t; rw [skipTy, skipTy, cmt_skipClass]

theorem cmt_skipFunction : skipFunction (withComments E k) = skipFunction E := by
  funext F; rw [skipFunction, skipFunction, cmt_skipTy]; rfl

theorem cmt_bindClass : bindClass (withComments E k) = bindClass E := by
  funext i; rw [bindClass, bindClass, cmt_skipTy]; rfl

theorem cmt_bindFunctionAsked : bindFunctionAsked (withComments E k) = bindFunctionAsked E := by
  funext F; unfold bindFunctionAsked bindTy; rw [cmt_bindClass]; rfl

theorem cmt_tyBindableWith (r : Nat → Bool) : tyBindableWith (withComments E k) r = tyBindableWith E r := by
  funext t
  fun_induction tyBindableWith E r t <;> simp_all [tyBindableWith] <;> rfl

theorem cmt_classBindableF (n : Nat) : classBindableF (withComments E k) n = classBindableF E n := by
  induction n with
  | zero => rfl
  | succ n ih => funext i; rw [classBindableF, classBindableF, ih, cmt_tyBindableWith]; rfl

theorem cmt_classBindable : classBindable (withComments E k) = classBindable E := by
  funext i; rw [classBindable, classBindable, cmt_classBindableF]; rfl

theorem cmt_tyBindable : tyBindable (withComments E k) = tyBindable E := by
  funext t; rw [tyBindable, tyBindable, cmt_tyBindableWith, cmt_classBindable]

theorem cmt_functionBindable : functionBindable (withComments E k) = functionBindable E := by
  funext F; rw [functionBindable, functionBindable, cmt_tyBindable]; rfl

theorem cmt_fieldBindable : fieldBindable (withComments E k) = fieldBindable E := by
  funext F; rw [fieldBindable, fieldBindable, cmt_tyBindable]

theorem cmt_tyRequests : tyRequests (withComments E k) = tyRequests E := by
  funext t
  fun_induction tyRequests E t <;> simp_all [tyRequests, cmt_skipTy] <;> rfl

theorem cmt_bindFunctionRequests : bindFunctionRequests (withComments E k) = bindFunctionRequests E := by
  funext F; rw [bindFunctionRequests, bindFunctionRequests, cmt_tyRequests]

theorem cmt_callbackNeededF (n : Nat) : callbackNeededF (withComments E k) n = callbackNeededF E n := by
  induction n with
  | zero => rfl
  | succ n ih => funext i; rw [callbackNeededF, callbackNeededF, ih, cmt_functionBindable]; rfl

theorem cmt_callbackConstructibleF (n : Nat) : callbackConstructibleF (withComments E k) n = callbackConstructibleF E n := by
  have hp : pureBlocked (withComments E k) = pureBlocked E := by
    funext m; rw [pureBlocked, pureBlocked, cmt_functionBindable, cmt_skipFunction]
  induction n with
  | zero => rfl
  | succ n ih => funext i; rw [callbackConstructibleF, callbackConstructibleF, ih, hp]; rfl

theorem cmt_trampoline : trampoline (withComments E k) = trampoline E := by
  funext i
  rw [trampoline, trampoline, callbackNeeded, callbackNeeded, callbackConstructible, callbackConstructible, cmt_callbackNeededF,
    cmt_callbackConstructibleF]
  rfl

theorem cmt_dataMembers : dataMembers (withComments E k) = dataMembers E := by
  funext i
  unfold dataMembers usedFields ownFields
  rw [cmt_fieldBindable]
  rfl

theorem cmt_memberFunctions : memberFunctions (withComments E k) = memberFunctions E := by
  have h : memberWanted (withComments E k) = memberWanted E := by
    funext m; rw [memberWanted, memberWanted, cmt_functionBindable, cmt_skipFunction]; rfl
  funext i
  unfold memberFunctions
  rw [h]
  congr 1
  rw [cmt_cls]
  congr 1
  funext m
  cases m <;> simp only [memberItems, h]

theorem cmt_templateBasesF (n : Nat) : templateBasesF (withComments E k) n = templateBasesF E n := by
  induction n with
  | zero => rfl
  | succ n ih =>
    funext i
    have h : templateBaseItems (withComments E k) = templateBaseItems E := by
      funext r b
      unfold templateBaseItems
      rw [cmt_skipClass, cmt_dataMembers, cmt_memberFunctions]
    rw [templateBasesF, templateBasesF, ih, h]
    rfl

theorem cmt_templateBases : templateBases (withComments E k) = templateBases E := by
  funext i; rw [templateBases, templateBases, cmt_templateBasesF]; rfl

theorem cmt_baseDefaultsF (n : Nat) : baseDefaultsF (withComments E k) n = baseDefaultsF E n := by
  induction n with
  | zero => rfl
  | succ n ih => funext i; rw [baseDefaultsF, baseDefaultsF, ih]; rfl

theorem cmt_ctorItems : ctorItems (withComments E k) = ctorItems E := by
  funext i
  have h1 : ownCtors (withComments E k) = ownCtors E := by
    funext C; rw [ownCtors, ownCtors, cmt_functionBindable, cmt_skipFunction]
  have h2 : inheritedCtors (withComments E k) = inheritedCtors E := by
    funext C; rw [inheritedCtors, inheritedCtors, cmt_functionBindable]
  rw [ctorItems, ctorItems, cmt_trampoline, h1, h2, baseDefaults, baseDefaults, cmt_baseDefaultsF]
  rfl

theorem cmt_itemRequests : itemRequests (withComments E k) = itemRequests E := by
  funext x; cases x <;> simp only [itemRequests, cmt_tyRequests, cmt_bindFunctionRequests]

theorem cmt_boundBases : boundBases (withComments E k) = boundBases E := by
  funext C
  rw [boundBases, boundBases, cmt_classBindable, cmt_skipClass]
  rfl

theorem cmt_nestedBound : nestedBound (withComments E k) = nestedBound E := by
  funext C
  rw [nestedBound, nestedBound, cmt_classBindable]
  rfl

theorem cmt_classItems : classItems (withComments E k) = classItems E := by
  funext i
  unfold classItems
  rw [cmt_ctorItems, cmt_dataMembers, cmt_memberFunctions, cmt_templateBases]
  rfl

theorem cmt_overridesF (n : Nat) : overridesF (withComments E k) n = overridesF E n := by
  have h : overrideStep (withComments E k) = overrideStep E := by
    funext i s m
    have h : overridable (withComments E k) m = overridable E m := by
      rw [overridable, overridable, cmt_functionBindable, cmt_skipFunction]; rfl
    rw [overrideStep, overrideStep, h]
    rfl
  induction n with
  | zero => rfl
  | succ n ih => funext s i; rw [overridesF, overridesF, ih, h]; rfl

theorem cmt_overrides : overrides (withComments E k) = overrides E := by
  funext i
  rw [overrides, overrides, cmt_overridesF]
  rfl

/-- Apart from the text. -/
theorem cmt_shape (n i : Nat) : (bindClassTextF (withComments E k) n i).requests = (bindClassTextF E n i).requests ∧
    (bindClassTextF (withComments E k) n i).deps = (bindClassTextF E n i).deps ∧
    (bindClassTextF (withComments E k) n i).prefixIncludes = (bindClassTextF E n i).prefixIncludes := by
  induction n generalizing i with
  | zero => exact ⟨rfl, rfl, rfl⟩
  | succ n ih =>
    rw [bindClassTextF, bindClassTextF]
    by_cases hb : builtinDecl E (E.cls i).qname = true
    · have hb' : builtinDecl (withComments E k) ((withComments E k).cls i).qname = true := hb
      rw [if_pos hb, if_pos hb']
      exact ⟨rfl, rfl, rfl⟩
    · have hb' : ¬ builtinDecl (withComments E k) ((withComments E k).cls i).qname = true := hb
      rw [if_neg hb, if_neg hb']
      simp only [cmt_cls, cmt_cfg, cmt_stdName]
      cases E.cfg.binders (stdName E (E.cls i).qname) with
      | some b => exact ⟨rfl, rfl, rfl⟩
      | none =>
        simp only [cmt_classItems, cmt_itemRequests, List.flatMap_map, fun i => (ih i).1, cmt_boundBases, cmt_tyRequests, cmt_nestedBound, cmt_trampoline,
          cmt_overrides]
        exact ⟨trivial, trivial, trivial⟩

theorem cmt_requestsOf (v : Visit) : requestsOf (withComments E k) v = requestsOf E v := by
  cases v with
  | fn F => show bindFunctionRequests _ F = _; rw [cmt_bindFunctionRequests]; rfl
  | cls i => exact (cmt_shape E k _ i).1
  | enm i => rfl

end

end Binder
