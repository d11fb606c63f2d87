import Verif.Spec.Steps
import Verif.Lemmas.Run

/-!
# What a process can do to the files
-/

namespace Binder

open Spec

/-- What is still to be put into a stream before it is closed. -/
def restOf (s : Slot) : List FileOp → Str
  | [] => []
  | .put s' t :: r => if s' = s then t ++ restOf s r else restOf s r
  | .close s' :: r => if s' = s then [] else restOf s r
  | _ :: r => restOf s r

/-- The files that are still to be opened. -/
def touched : List FileOp → List Str
  | [] => []
  | .openFile _ n _ :: r => n :: touched r
  | .refresh n _ :: r => n :: touched r
  | _ :: r => touched r

/-- The operations will put the text `t` into `x`. -/
def Makes (x t : Str) : List FileOp → Prop
  | [] => False
  | .openFile s n _ :: r => (n = x ∧ restOf s r = t) ∨ (n ≠ x ∧ Makes x t r)
  | .refresh n code :: r => (n = x ∧ code = t) ∨ (n ≠ x ∧ Makes x t r)
  | _ :: r => Makes x t r

/-- Streams are opened before they are used, and closed once; no other file is opened, and no directory made, while a source is written. -/
def Proper : (Slot → Bool) → List FileOp → Prop
  | op, [] => ∀ s, op s = false
  | op, .openFile s _ _ :: r => op s = false ∧ op .source = false ∧ Proper (fun t => if t = s then true else op t) r
  | op, .put s _ :: r => op s = true ∧ Proper op r
  | op, .close s :: r => op s = true ∧ Proper (fun t => if t = s then false else op t) r
  | op, .mkdir _ :: r => op .source = false ∧ Proper op r
  | op, .refresh _ code :: r => op .source = false ∧ code ≠ [] ∧ Proper op r
  | _, .stop _ :: _ => False

/-- The directories of the files exist when they are opened. -/
def Ready : (Str → Prop) → List FileOp → Prop
  | _, [] => True
  | D, .openFile _ n _ :: r => D (parentDir n) ∧ Ready D r
  | D, .refresh n _ :: r => D (parentDir n) ∧ Ready D r
  | D, .mkdir p :: r => p ≠ [] ∧ Ready (fun d => D d ∨ d ∈ dirChain p) r
  | D, _ :: r => Ready D r

theorem Ready.mono {D D' : Str → Prop} {l : List FileOp} (h : Ready D l) (hD : ∀ d, D d → D' d) : Ready D' l := by
  induction l generalizing D D' with
  | nil => trivial
  | cons a r ih =>
    cases a with
    | openFile s n c => exact ⟨hD _ h.1, ih h.2 hD⟩
    | refresh n c => exact ⟨hD _ h.1, ih h.2 hD⟩
    | mkdir p => exact ⟨h.1, ih h.2 (fun d hd => hd.imp (hD d) id)⟩
    | put s t => exact ih (D := D) h hD
    | close s => exact ih (D := D) h hD
    | stop e => exact ih (D := D) h hD

/-- How far a file is. -/
inductive FileState (f0 : Str → Option Str) (st : Slot → Option Stream) (todo : List FileOp) (f : Str → Option Str) (x t : Str) : Prop where
  | waiting : f x = f0 x → Makes x t todo → x ∈ touched todo → (∀ s h, st s = some h → h.name ≠ x) → FileState f0 st todo f x t
  | writing (s : Slot) (h : Stream) (u : Str) : st s = some h → h.name = x → f x = some u → u.length = h.pos →
      u ++ h.buffer ++ restOf s todo = t → x ∉ touched todo → (∀ s' h', st s' = some h' → h'.name = x → s' = s) → FileState f0 st todo f x t
  | finished : f x = some t → x ∉ touched todo → (∀ s h, st s = some h → h.name ≠ x) → FileState f0 st todo f x t

/-- The state of a process that has to write `outs`. -/
structure PInv (f0 : Str → Option Str) (D : Str → Prop) (outs : List (Str × Str)) (p : Proc) (fs : FS) : Prop where
  running : p.ended = none
  proper : Proper (fun s => (p.streams s).isSome) p.todo
  nodup : (touched p.todo).Nodup
  ready : Ready (fun d => fs.dirs d = true) p.todo
  chains : ∀ q, FileOp.mkdir q ∈ p.todo → ∀ d ∈ dirChain q, D d
  mine : ∀ n ∈ touched p.todo, ∃ t, (n, t) ∈ outs
  open' : ∀ s h, p.streams s = some h → ∃ t, (h.name, t) ∈ outs
  state : ∀ x t, (x, t) ∈ outs → FileState f0 p.streams p.todo fs.files x t

/-- The state of the files: `D` are directories that exist in the end, `O` the files that are written. -/
structure WInv (f0 : Str → Option Str) (D O : Str → Prop) (fs : FS) : Prop where
  dirs : ∀ d, fs.dirs d = true → D d
  files : ∀ x, ¬ O x → fs.files x = f0 x

theorem setStream_isSome (st : Slot → Option Stream) (s : Slot) (v : Option Stream) :
    (fun t => (setStream st s v t).isSome) = fun t => if t = s then v.isSome else (st t).isSome := by
  funext t
  unfold setStream
  split <;> rfl

theorem setStream_some {st : Slot → Option Stream} {s t : Slot} {v : Option Stream} {h : Stream} (e : setStream st s v t = some h) :
    (t = s ∧ v = some h) ∨ (t ≠ s ∧ st t = some h) := by
  unfold setStream at e
  split at e
  · exact .inl ⟨by assumption, e⟩
  · exact .inr ⟨by assumption, e⟩

theorem setStream_self (st : Slot → Option Stream) (s : Slot) (v : Option Stream) : setStream st s v s = v := by simp [setStream]
theorem setStream_ne (st : Slot → Option Stream) {s t : Slot} (v : Option Stream) (h : t ≠ s) : setStream st s v t = st t := by simp [setStream, h]

theorem patch_end (u a : Str) : patch u u.length a = u ++ a := by simp [patch]

theorem writeAt_files (fs : FS) (name : Str) (u a : Str) (hf : fs.files name = some u) :
    (fs.writeAt name u.length a).files name = some (u ++ a) ∧ (∀ x, x ≠ name → (fs.writeAt name u.length a).files x = fs.files x) ∧
    (fs.writeAt name u.length a).dirs = fs.dirs := by
  unfold FS.writeAt
  split
  · rename_i h
    rw [List.isEmpty_iff.1 h]
    exact ⟨by simp [hf], fun _ _ => rfl, rfl⟩
  · refine ⟨?_, fun x hx => by simp [hx], rfl⟩
    simp only [if_true, hf, Option.getD_some, patch_end]

/-- Other processes may do something to other files and make directories. -/
theorem PInv.frame {f0 : Str → Option Str} {D : Str → Prop} {outs : List (Str × Str)} {p : Proc} {fs fs' : FS} (h : PInv f0 D outs p fs)
    (hd : ∀ d, fs.dirs d = true → fs'.dirs d = true) (hf : ∀ x t, (x, t) ∈ outs → fs'.files x = fs.files x) : PInv f0 D outs p fs' := by
  refine ⟨h.running, h.proper, h.nodup, h.ready.mono hd, h.chains, h.mine, h.open', ?_⟩
  intro x t hx
  have e := hf x t hx
  cases h.state x t hx with
  | waiting h1 h2 h3 h4 => exact .waiting (e.trans h1) h2 h3 h4
  | writing s k u h1 h2 h3 h4 h5 h6 h7 => exact .writing s k u h1 h2 (e.trans h3) h4 h5 h6 h7
  | finished h1 h2 h3 => exact .finished (e.trans h1) h2 h3

/-- What a step has to keep. -/
def Keeps (f0 : Str → Option Str) (D O : Str → Prop) (outs : List (Str × Str)) (p' : Proc) (fs fs' : FS) : Prop :=
  PInv f0 D outs p' fs' ∧ WInv f0 D O fs' ∧ (∀ x, (∀ t, (x, t) ∉ outs) → fs'.files x = fs.files x) ∧ (∀ d, fs.dirs d = true → fs'.dirs d = true)

section
variable {f0 : Str → Option Str} {D O : Str → Prop} (hO : ∀ x, O x → ¬ D x) (hD : ∀ d, D d → f0 d = none)
  {outs : List (Str × Str)} (houts : ∀ x t, (x, t) ∈ outs → O x) {r : List FileOp} {st : Slot → Option Stream} {e : Option Ending} {fs : FS}
include hO houts

theorem PInv.openFile {s : Slot} {n : Str} {ck : Bool} (h : PInv f0 D outs ⟨.openFile s n ck :: r, st, e⟩ fs) (hw : WInv f0 D O fs) :
    ∃ fs', FileOp.exec (.openFile s n ck) ⟨r, st, e⟩ fs = (⟨r, setStream st s (some ⟨n, 0, []⟩), e⟩, fs') ∧
      Keeps f0 D O outs ⟨r, setStream st s (some ⟨n, 0, []⟩), e⟩ fs fs' := by
  obtain ⟨tn, htn⟩ := h.mine n (by simp [touched])
  have hnd : fs.dirs n = false := by
    cases hc : fs.dirs n with
    | false => rfl
    | true => exact absurd (hw.dirs n hc) (hO n (houts _ _ htn))
  obtain ⟨fs', hwr⟩ := writeFile_ok [] hnd h.ready.1
  have hf := writeFile_some hwr
  obtain ⟨hdirs, _⟩ := writeFile_dirs hwr
  have hp : (st s).isSome = false ∧ Proper (fun t => if t = s then true else (st t).isSome) r := ⟨h.proper.1, h.proper.2.2⟩
  have hst : st s = none := by simpa using hp.1
  have hnodup := h.nodup
  simp only [touched, List.nodup_cons] at hnodup
  refine ⟨fs', by simp only [FileOp.exec, hwr], ⟨h.running, ?_, hnodup.2, ?_, fun q hq => h.chains q (List.mem_cons_of_mem _ hq),
    fun m hm => h.mine m (by simp [touched, hm]), ?_, ?_⟩, ⟨by rw [hdirs]; exact hw.dirs, ?_⟩, ?_, by rw [hdirs]; exact fun _ hd => hd⟩
  · show Proper (fun t => (setStream st s (some ⟨n, 0, []⟩) t).isSome) r
    rw [setStream_isSome]
    exact hp.2
  · rw [hdirs]; exact h.ready.2
  · intro s' h' e'
    rcases setStream_some e' with ⟨_, e'⟩ | ⟨_, e'⟩
    · cases e'; exact ⟨tn, htn⟩
    · exact h.open' s' h' e'
  · intro x t hx
    by_cases hxn : x = n
    · subst hxn
      cases h.state x t hx with
      | writing _ _ _ _ _ _ _ _ h6 _ => exact absurd (by simp [touched]) h6
      | finished _ h6 _ => exact absurd (by simp [touched]) h6
      | waiting h1 h2 h3 h4 =>
        have hrest : restOf s r = t := by
          rcases h2 with h2 | h2
          · exact h2.2
          · exact absurd rfl h2.1
        refine .writing s ⟨x, 0, []⟩ [] (setStream_self _ _ _) rfl (by rw [hf]; simp) rfl (by simpa using hrest) hnodup.1 ?_
        intro s' h' e1 e2
        rcases setStream_some e1 with ⟨e3, _⟩ | ⟨_, e3⟩
        · exact e3
        · exact absurd e2 (h4 s' h' e3)
    · have ef : fs'.files x = fs.files x := by rw [hf]; simp [hxn]
      have hnames : ∀ s' h', setStream st s (some ⟨n, 0, []⟩) s' = some h' → h'.name = x → s' ≠ s ∧ st s' = some h' := by
        intro s' h' e1 e2
        rcases setStream_some e1 with ⟨_, e3⟩ | e3
        · cases e3; exact absurd e2 (Ne.symm hxn)
        · exact e3
      cases h.state x t hx with
      | waiting h1 h2 h3 h4 =>
        refine .waiting (ef.trans h1) ?_ ?_ (fun s' h' e1 e2 => h4 s' h' (hnames s' h' e1 e2).2 e2)
        · rcases h2 with h2 | h2
          · exact absurd h2.1.symm hxn
          · exact h2.2
        · simpa [touched, hxn] using h3
      | finished h1 h2 h4 =>
        exact .finished (ef.trans h1) (fun hm => h2 (by simp [touched, hm])) (fun s' h' e1 e2 => h4 s' h' (hnames s' h' e1 e2).2 e2)
      | writing s2 k2 w q1 q2 q3 q4 q5 q6 q7 =>
        have q0 : st s2 = some k2 := q1
        have hs2 : s2 ≠ s := by rintro rfl; rw [hst] at q0; cases q0
        exact .writing s2 k2 w ((setStream_ne _ _ hs2).trans q1) q2 (ef.trans q3) q4 q5 (fun hm => q6 (by simp [touched, hm]))
          (fun s' h' e1 e2 => q7 s' h' (hnames s' h' e1 e2).2 e2)
  · intro x hx
    rw [hf]
    have : x ≠ n := fun e' => hx (e' ▸ houts _ _ htn)
    simp only [this, if_false]
    exact hw.files x hx
  · intro x hx
    rw [hf]
    have : x ≠ n := fun e' => hx tn (e' ▸ htn)
    simp [this]

omit hO houts in
theorem PInv.put {s : Slot} {text : Str} (h : PInv f0 D outs ⟨.put s text :: r, st, e⟩ fs) (hw : WInv f0 D O fs) :
    Keeps f0 D O outs (FileOp.exec (.put s text) ⟨r, st, e⟩ fs).1 fs (FileOp.exec (.put s text) ⟨r, st, e⟩ fs).2 := by
  have hp : (st s).isSome = true ∧ Proper (fun t => (st t).isSome) r := h.proper
  obtain ⟨k, hk⟩ := Option.isSome_iff_exists.1 hp.1
  have hex : FileOp.exec (.put s text) ⟨r, st, e⟩ fs = (⟨r, setStream st s (some { k with buffer := k.buffer ++ text }), e⟩, fs) := by
    simp only [FileOp.exec, hk]
  rw [hex]
  have hnames : ∀ s' h', setStream st s (some { k with buffer := k.buffer ++ text }) s' = some h' → ∃ h'', st s' = some h'' ∧ h''.name = h'.name := by
    intro s' h' e1
    rcases setStream_some e1 with ⟨rfl, e3⟩ | ⟨_, e3⟩
    · cases e3; exact ⟨k, hk, rfl⟩
    · exact ⟨h', e3, rfl⟩
  refine ⟨⟨h.running, ?_, h.nodup, h.ready, fun q hq => h.chains q (List.mem_cons_of_mem _ hq), h.mine, ?_, ?_⟩, hw, fun _ _ => rfl, fun _ hd => hd⟩
  · show Proper (fun t => (setStream st s (some { k with buffer := k.buffer ++ text }) t).isSome) r
    have : (fun t => (setStream st s (some { k with buffer := k.buffer ++ text }) t).isSome) = fun t => (st t).isSome := by
      rw [setStream_isSome]
      funext t
      split
      · rename_i e'; rw [e', hp.1]; rfl
      · rfl
    rw [this]; exact hp.2
  · intro s' h' e1
    obtain ⟨h'', e2, e3⟩ := hnames s' h' e1
    rw [← e3]; exact h.open' s' h'' e2
  · intro x t hx
    cases h.state x t hx with
    | waiting h1 h2 h3 h4 =>
      refine .waiting h1 h2 h3 ?_
      intro s' h' e1
      obtain ⟨h'', e2, e3⟩ := hnames s' h' e1
      rw [← e3]; exact h4 s' h'' e2
    | finished h1 h2 h4 =>
      refine .finished h1 h2 ?_
      intro s' h' e1
      obtain ⟨h'', e2, e3⟩ := hnames s' h' e1
      rw [← e3]; exact h4 s' h'' e2
    | writing s2 k2 w q1 q2 q3 q4 q5 q6 q7 =>
      have q7' : ∀ s' h', setStream st s (some { k with buffer := k.buffer ++ text }) s' = some h' → h'.name = x → s' = s2 := by
        intro s' h' e1 e2
        obtain ⟨h'', e3, e4⟩ := hnames s' h' e1
        exact q7 s' h'' e3 (e4.trans e2)
      have q0 : st s2 = some k2 := q1
      by_cases hs2 : s2 = s
      · subst hs2
        rw [hk] at q0
        cases q0
        refine .writing s2 _ w (setStream_self _ _ _) q2 q3 q4 ?_ q6 q7'
        rw [← q5]; simp [restOf]
      · refine .writing s2 k2 w ((setStream_ne _ _ hs2).trans q1) q2 q3 q4 ?_ q6 q7'
        rw [← q5]; simp [restOf, Ne.symm hs2]

omit hO in
theorem PInv.close {s : Slot} (h : PInv f0 D outs ⟨.close s :: r, st, e⟩ fs) (hw : WInv f0 D O fs) :
    Keeps f0 D O outs (FileOp.exec (.close s) ⟨r, st, e⟩ fs).1 fs (FileOp.exec (.close s) ⟨r, st, e⟩ fs).2 := by
  have hp : (st s).isSome = true ∧ Proper (fun t => if t = s then false else (st t).isSome) r := h.proper
  obtain ⟨k, hk⟩ := Option.isSome_iff_exists.1 hp.1
  have hex : FileOp.exec (.close s) ⟨r, st, e⟩ fs = (⟨r, setStream st s none, e⟩, fs.writeAt k.name k.pos k.buffer) := by
    simp only [FileOp.exec, hk]
  rw [hex]
  obtain ⟨t, ht⟩ := h.open' s k hk
  cases h.state _ _ ht with
  | waiting _ _ _ h4 => exact absurd rfl (h4 s k hk)
  | finished _ _ h4 => exact absurd rfl (h4 s k hk)
  | writing s' k' w g1 g2 g3 g4 g5 g6 g7 =>
    have e' := g7 s k hk rfl
    subst e'
    have e' : k = k' := by have := hk.symm.trans g1; exact Option.some.inj this
    subst e'
    obtain ⟨w1, w2, w3⟩ := writeAt_files fs k.name w k.buffer g3
    rw [g4] at w1 w2 w3
    have hnames : ∀ s' h', setStream st s none s' = some h' → s' ≠ s ∧ st s' = some h' := by
      intro s' h' e1
      rcases setStream_some e1 with ⟨_, e3⟩ | e3
      · cases e3
      · exact e3
    refine ⟨⟨h.running, ?_, h.nodup, ?_, fun q hq => h.chains q (List.mem_cons_of_mem _ hq), h.mine, ?_, ?_⟩, ⟨by rw [w3]; exact hw.dirs, ?_⟩, ?_,
      by rw [w3]; exact fun _ hd => hd⟩
    · show Proper (fun t => (setStream st s none t).isSome) r
      rw [setStream_isSome]; exact hp.2
    · rw [w3]; exact h.ready
    · intro s' h' e1
      exact h.open' s' h' (hnames s' h' e1).2
    · intro x y hx
      by_cases hxe : x = k.name
      · subst hxe
        have hfin : ∀ s' h', setStream st s none s' = some h' → h'.name ≠ k.name := by
          intro s' h' e1 e2
          exact (hnames s' h' e1).1 (g7 s' h' (hnames s' h' e1).2 e2)
        cases h.state _ _ hx with
        | waiting _ _ _ h4 => exact absurd rfl (h4 s k hk)
        | finished _ _ h4 => exact absurd rfl (h4 s k hk)
        | writing s2 k2 w5 q1 q2 q3 q4 q5 q6 q7 =>
          have e' := q7 s k hk rfl
          subst e'
          have e' : k = k2 := by have := hk.symm.trans q1; exact Option.some.inj this
          subst e'
          have e' : w = w5 := by have := g3.symm.trans q3; exact Option.some.inj this
          subst e'
          refine .finished ?_ q6 hfin
          rw [w1, ← q5]
          simp [restOf]
      · have ef := w2 x hxe
        cases h.state x y hx with
        | waiting q1 q2 q3 q4 => exact .waiting (ef.trans q1) q2 q3 (fun s' h' e1 => q4 s' h' (hnames s' h' e1).2)
        | finished q1 q2 q4 => exact .finished (ef.trans q1) q2 (fun s' h' e1 => q4 s' h' (hnames s' h' e1).2)
        | writing s2 k2 w4 q1 q2 q3 q4 q5 q6 q7 =>
          have q0 : st s2 = some k2 := q1
          have hs2 : s2 ≠ s := by
            rintro rfl
            rw [hk] at q0
            cases q0
            exact hxe q2.symm
          refine .writing s2 k2 w4 ((setStream_ne _ _ hs2).trans q1) q2 (ef.trans q3) q4 ?_ q6 (fun s' h' e1 => q7 s' h' (hnames s' h' e1).2)
          rw [← q5]; simp [restOf, Ne.symm hs2]
    · intro x hx
      rw [w2 x (fun e => hx (by rw [e]; exact houts _ _ ht))]
      exact hw.files x hx
    · intro x hx
      exact w2 x (fun e => hx t (by rw [e]; exact ht))

omit houts in
include hD in
theorem PInv.mkdir {q : Str} (h : PInv f0 D outs ⟨.mkdir q :: r, st, e⟩ fs) (hw : WInv f0 D O fs) :
    ∃ fs', FileOp.exec (.mkdir q) ⟨r, st, e⟩ fs = (⟨r, st, e⟩, fs') ∧ Keeps f0 D O outs ⟨r, st, e⟩ fs fs' := by
  have hch : ∀ d ∈ dirChain q, D d := h.chains q (by simp)
  obtain ⟨fs', hm⟩ := mkdirP_ok (fs := fs) h.ready.1 (by
    intro d hd
    have hDd := hch d hd
    rw [hw.files d (fun ho => hO d ho hDd)]
    exact hD d hDd)
  obtain ⟨h1, _, h3, _⟩ := mkdirP_some hm
  refine ⟨fs', by simp only [FileOp.exec, hm], ⟨h.running, h.proper.2, h.nodup, ?_, fun q hq => h.chains q (List.mem_cons_of_mem _ hq), h.mine, h.open', ?_⟩,
    ⟨?_, by rw [h1]; exact hw.files⟩, fun _ _ => by rw [h1], fun d hd => (h3 d).2 (.inl hd)⟩
  · exact Ready.mono h.ready.2 (fun d hd => (h3 d).2 hd)
  · intro x t hx
    show FileState f0 st r fs'.files x t
    rw [h1]
    cases h.state x t hx with
    | waiting a b c d => exact .waiting a b c d
    | writing a b c d e f g h i j => exact .writing a b c d e f g h i j
    | finished a b c => exact .finished a b c
  · intro d hd
    rcases (h3 d).1 hd with hd | hd
    · exact hw.dirs d hd
    · exact hch d hd

omit hO houts in
theorem PInv.refresh {n code : Str} (h : PInv f0 D outs ⟨.refresh n code :: r, st, e⟩ fs) (hw : WInv f0 D O fs) :
    Keeps f0 D O outs (FileOp.exec (.refresh n code) ⟨r, st, e⟩ fs).1 fs (FileOp.exec (.refresh n code) ⟨r, st, e⟩ fs).2 := by
  have hp : (st .source).isSome = false ∧ code ≠ [] ∧ Proper (fun t => (st t).isSome) r := h.proper
  have hsrc : st .source = none := by simpa using hp.1
  have hnodup := h.nodup
  simp only [touched, List.nodup_cons] at hnodup
  by_cases hne : (fs.files n).getD [] = code
  · have hex : FileOp.exec (.refresh n code) ⟨r, st, e⟩ fs = (⟨r, st, e⟩, fs) := by
      simp [FileOp.exec, hne]
    rw [hex]
    refine ⟨⟨h.running, hp.2.2, hnodup.2, h.ready.2, fun q hq => h.chains q (List.mem_cons_of_mem _ hq), fun m hm => h.mine m (by simp [touched, hm]),
      h.open', ?_⟩, hw, fun _ _ => rfl, fun _ hd => hd⟩
    intro x t hx
    cases h.state x t hx with
    | waiting h1 h2 h3 h4 =>
      rcases h2 with ⟨h2, h2'⟩ | ⟨h2, h2'⟩
      · subst h2 h2'
        refine .finished ?_ hnodup.1 h4
        show fs.files n = some code
        cases hf : fs.files n with
        | none => rw [hf] at hne; exact absurd hne.symm hp.2.1
        | some u => rw [hf] at hne; exact congrArg some hne
      · exact .waiting h1 h2' (by simpa [touched, Ne.symm h2] using h3) h4
    | finished h1 h2 h4 => exact .finished h1 (fun hm => h2 (by simp [touched, hm])) h4
    | writing s2 k2 w q1 q2 q3 q4 q5 q6 q7 => exact .writing s2 k2 w q1 q2 q3 q4 q5 (fun hm => q6 (by simp [touched, hm])) q7
  · have hex : FileOp.exec (.refresh n code) ⟨r, st, e⟩ fs =
        (⟨.openFile .source n true :: .put .source code :: .close .source :: r, st, e⟩, fs) := by
      simp [FileOp.exec, hne]
    rw [hex]
    refine ⟨⟨h.running, ?_, h.nodup, h.ready, ?_, h.mine, h.open', ?_⟩, hw, fun _ _ => rfl, fun _ hd => hd⟩
    · refine ⟨hp.1, hp.1, by simp, by simp, ?_⟩
      have : (fun t => if t = Slot.source then false else if t = Slot.source then true else (st t).isSome) = fun t => (st t).isSome := by
        funext t
        split
        · rename_i e'; rw [e', hp.1]
        · rfl
      rw [this]; exact hp.2.2
    · intro q hq
      exact h.chains q (by simpa using hq)
    · intro x t hx
      cases h.state x t hx with
      | waiting h1 h2 h3 h4 =>
        refine .waiting h1 ?_ h3 h4
        rcases h2 with ⟨h2, h2'⟩ | ⟨h2, h2'⟩
        · exact .inl ⟨h2, by simpa [restOf] using h2'⟩
        · exact .inr ⟨h2, h2'⟩
      | finished h1 h2 h4 => exact .finished h1 h2 h4
      | writing s2 k2 w q1 q2 q3 q4 q5 q6 q7 =>
        have q0 : st s2 = some k2 := q1
        have hs2 : s2 ≠ .source := by rintro rfl; rw [hsrc] at q0; cases q0
        refine .writing s2 k2 w q1 q2 q3 q4 ?_ q6 q7
        rw [← q5]; simp [restOf, Ne.symm hs2]
end

/-- One step keeps everything as it should be and touches no foreign file. -/
theorem PInv.step {f0 : Str → Option Str} {D O : Str → Prop} (hO : ∀ x, O x → ¬ D x) (hD : ∀ d, D d → f0 d = none)
    {outs : List (Str × Str)} (houts : ∀ x t, (x, t) ∈ outs → O x) {p p' : Proc} {fs fs' : FS}
    (h : PInv f0 D outs p fs) (hw : WInv f0 D O fs) (hs : ProcStep (p, fs) (p', fs')) :
    PInv f0 D outs p' fs' ∧ WInv f0 D O fs' ∧ (∀ x, (∀ t, (x, t) ∉ outs) → fs'.files x = fs.files x) ∧ (∀ d, fs.dirs d = true → fs'.dirs d = true) := by
  generalize ea : (p, fs) = a at hs
  generalize eb : (p', fs') = b at hs
  cases hs with
  | @flush p1 fs1 s k u v h1 h2 h3 =>
    cases ea
    have eb1 : p' = { p with streams := setStream p.streams s (some ⟨k.name, k.pos + u.length, v⟩) } := congrArg Prod.fst eb
    have eb2 : fs' = fs.writeAt k.name k.pos u := congrArg Prod.snd eb
    obtain ⟨t, ht⟩ := h.open' s k h1
    cases h.state _ _ ht with
    | waiting _ _ _ h4 => exact absurd rfl (h4 s k h1)
    | finished _ _ h4 => exact absurd rfl (h4 s k h1)
    | writing s' k' w g1 g2 g3 g4 g5 g6 g7 =>
      have e := g7 s k h1 rfl
      subst e
      rw [h1] at g1
      cases g1
      obtain ⟨w1, w2, w3⟩ := writeAt_files fs k.name w u g3
      rw [g4] at w1 w2 w3
      rw [← eb2] at w1 w2 w3
      have hp : (fun t => (p'.streams t).isSome) = fun t => (p.streams t).isSome := by
        rw [eb1]
        funext t
        simp only [setStream]
        split
        · rename_i e; subst e; rw [h1]; rfl
        · rfl
      have htodo : p'.todo = p.todo := by rw [eb1]
      have hstr : p'.streams = setStream p.streams s (some ⟨k.name, k.pos + u.length, v⟩) := by rw [eb1]
      refine ⟨⟨by rw [eb1]; exact h.running, by rw [hp, htodo]; exact h.proper, by rw [htodo]; exact h.nodup, by rw [htodo, w3]; exact h.ready,
        by rw [htodo]; exact h.chains, by rw [htodo]; exact h.mine, ?_, ?_⟩, ⟨by rw [w3]; exact hw.dirs, ?_⟩, ?_, by rw [w3]; exact fun _ hd => hd⟩
      · intro s' h' e
        rw [hstr] at e
        rcases setStream_some e with ⟨_, e⟩ | ⟨_, e⟩
        · cases e; exact ⟨t, ht⟩
        · exact h.open' s' h' e
      · intro x y hx
        have hnames : ∀ s' h', p'.streams s' = some h' → ∃ h'', p.streams s' = some h'' ∧ h''.name = h'.name := by
          intro s' h' e
          rw [hstr] at e
          rcases setStream_some e with ⟨e0, e3⟩ | ⟨_, e3⟩
          · refine ⟨k, by rw [e0]; exact h1, ?_⟩
            rw [← Option.some.inj e3]
          · exact ⟨h', e3, rfl⟩
        by_cases hxe : x = k.name
        · subst hxe
          have hy : y = t := by
            cases h.state _ _ hx with
            | waiting _ _ _ h4 => exact absurd rfl (h4 s k h1)
            | finished _ _ h4 => exact absurd rfl (h4 s k h1)
            | writing s2 k2 w2 q1 q2 q3 q4 q5 q6 q7 =>
              have e := q7 s k h1 rfl
              subst e
              rw [h1] at q1; cases q1
              rw [g3] at q3; cases q3
              rw [← q5, ← g5]
          subst hy
          refine .writing s ⟨k.name, k.pos + u.length, v⟩ (w ++ u) (by rw [hstr, setStream_self]) rfl w1 (by simp [g4]) ?_ (by rw [htodo]; exact g6) ?_
          · rw [htodo, ← g5, h2]; simp
          · intro s' h' e1 e2
            obtain ⟨h'', e3, e4⟩ := hnames s' h' e1
            exact g7 s' h'' e3 (e4.trans e2)
        · have ef := w2 x hxe
          cases h.state x y hx with
          | waiting q1 q2 q3 q4 =>
            refine .waiting (ef.trans q1) (by rw [htodo]; exact q2) (by rw [htodo]; exact q3) ?_
            intro s' h' e
            obtain ⟨h'', e3, e4⟩ := hnames s' h' e
            rw [← e4]; exact q4 s' h'' e3
          | finished q1 q2 q4 =>
            refine .finished (ef.trans q1) (by rw [htodo]; exact q2) ?_
            intro s' h' e
            obtain ⟨h'', e3, e4⟩ := hnames s' h' e
            rw [← e4]; exact q4 s' h'' e3
          | writing s2 k2 w4 q1 q2 q3 q4 q5 q6 q7 =>
            have hs2 : s2 ≠ s := by
              rintro rfl
              rw [h1] at q1; cases q1
              exact hxe q2.symm
            refine .writing s2 k2 w4 (by rw [hstr, setStream_ne _ _ hs2]; exact q1) q2 (ef.trans q3) q4 (by rw [htodo]; exact q5) (by rw [htodo]; exact q6) ?_
            intro s' h' e1 e2
            obtain ⟨h'', e3, e4⟩ := hnames s' h' e1
            exact q7 s' h'' e3 (e4.trans e2)
      · intro x hx
        rw [w2 x (fun e => hx (by rw [e]; exact houts _ _ ht))]
        exact hw.files x hx
      · intro x hx
        exact w2 x (fun e => hx t (by rw [e]; exact ht))
  | @op p1 fs1 op r h1 =>
    cases ea
    obtain ⟨todo, st, e⟩ := p
    simp only at h1
    subst h1
    have eb1 : p' = (op.exec ⟨r, st, e⟩ fs).1 := congrArg Prod.fst eb
    have eb2 : fs' = (op.exec ⟨r, st, e⟩ fs).2 := congrArg Prod.snd eb
    rw [eb1, eb2]
    cases op with
    | openFile s n ck =>
      obtain ⟨g, h1, h2⟩ := PInv.openFile hO houts h hw
      rw [h1]; exact h2
    | put s t => exact h.put hw
    | close s => exact PInv.close houts h hw
    | mkdir q =>
      obtain ⟨g, h1, h2⟩ := PInv.mkdir hO hD h hw
      rw [h1]; exact h2
    | refresh n code => exact h.refresh hw
    | stop how => exact absurd h.proper id

end Binder
