import Verif.Model.Races
import Mathlib.Tactic.ByContra
import Mathlib.Tactic.Cases

/-!
# Locks and data races: lemmas

Three reasons why a field is never accessed by two goroutines at once: a lock (`guarded_inv`), one goroutine only (`suffix_inv`), or the wait group (`phase_inv`).
-/

namespace StayRTR

set_option linter.unusedSectionVars false

variable {G L F : Type} [DecidableEq G] [DecidableEq L] [DecidableEq F]

/-- In the code `ops`, entered with lock `l` held like `m`: `f` is written only with the lock held exclusively, and only if `w`; it is read only with the lock
held, or if `r`; and in the end the lock is given back. -/
def guardedBy (f : F) (l : L) (r w : Bool) : RMode → List (ROp L F) → Bool
  | m, [] => decide (m = .no)
  | m, .rlock l' :: ops => guardedBy f l r w (if l' = l then .shared else m) ops
  | m, .runlock l' :: ops => guardedBy f l r w (if l' = l then .no else m) ops
  | m, .lock l' :: ops => guardedBy f l r w (if l' = l then .excl else m) ops
  | m, .unlock l' :: ops => guardedBy f l r w (if l' = l then .no else m) ops
  | m, .read f' :: ops => (decide (f' ≠ f) || r || decide (m ≠ .no)) && guardedBy f l r w m ops
  | m, .write f' :: ops => (decide (f' ≠ f) || (w && decide (m = .excl))) && guardedBy f l r w m ops
  | m, .fork :: ops => guardedBy f l r w m ops
  | m, .done :: ops => guardedBy f l r w m ops
  | m, .join :: ops => guardedBy f l r w m ops

namespace RSys

@[simp] theorem goOn_held (s : RSys G L F) (g : G) (ops : List (ROp L F)) : (s.goOn g ops).held = s.held := rfl
@[simp] theorem goOn_busy (s : RSys G L F) (g : G) (ops : List (ROp L F)) : (s.goOn g ops).busy = s.busy := rfl
@[simp] theorem hold_todo (s : RSys G L F) (g : G) (l : L) (m : RMode) : (s.hold g l m).todo = s.todo := rfl
@[simp] theorem hold_busy (s : RSys G L F) (g : G) (l : L) (m : RMode) : (s.hold g l m).busy = s.busy := rfl

theorem goOn_todo (s : RSys G L F) (g g' : G) (ops : List (ROp L F)) : (s.goOn g ops).todo g' = if g' = g then ops else s.todo g' := rfl
theorem hold_held (s : RSys G L F) (g g' : G) (l l' : L) (m : RMode) : (s.hold g l m).held g' l' = if g' = g ∧ l' = l then m else s.held g' l' := rfl

end RSys

/-- What a lock gives, at every moment. -/
def GuardInv (f : F) (l : L) (r w : G → Bool) (s : RSys G L F) : Prop :=
  (∀ g, guardedBy f l (r g) (w g) (s.held g l) (s.todo g) = true) ∧ ∀ g g', s.held g l = .excl → g' ≠ g → s.held g' l = .no

theorem guarded_step {prog : G → List (ROp L F) → Prop} {child : G → Bool} {f : F} {l : L} {r w : G → Bool}
    (hp : ∀ g seg, prog g seg → guardedBy f l (r g) (w g) .no seg = true) {s t : RSys G L F} (hi : GuardInv f l r w s) (hs : RStep prog child s t) :
    GuardInv f l r w t := by
  obtain ⟨hg, hm⟩ := hi
  cases hs with
  | enter g seg hps ht hc =>
    refine ⟨fun g' => ?_, hm⟩
    have h := hg g
    rw [ht] at h
    simp only [guardedBy, decide_eq_true_eq] at h
    rw [RSys.goOn_held, RSys.goOn_todo]
    split
    · rename_i e; subst e; rw [h]; exact hp _ _ hps
    · exact hg g'
  | rlock g l' rest ht hn hf =>
    have h := hg g
    rw [ht] at h
    simp only [guardedBy] at h
    refine ⟨fun g' => ?_, fun g₁ g₂ h₁ h₂ => ?_⟩
    · rw [RSys.goOn_held, RSys.goOn_todo, RSys.hold_todo, RSys.hold_held]
      by_cases e : g' = g
      · subst e
        by_cases el : l' = l
        · subst el; simpa using h
        · simpa [el, Ne.symm el] using h
      · simpa [e] using hg g'
    · rw [RSys.goOn_held, RSys.hold_held] at h₁ ⊢
      by_cases e : l = l'
      · subst e
        by_cases e1 : g₁ = g
        · simp [e1] at h₁
        · simp only [e1, false_and, if_false] at h₁
          exact absurd h₁ (hf g₁)
      · simp only [e, and_false, if_false] at h₁ ⊢
        exact hm _ _ h₁ h₂
  | lock g l' rest ht hf =>
    have h := hg g
    rw [ht] at h
    simp only [guardedBy] at h
    refine ⟨fun g' => ?_, fun g₁ g₂ h₁ h₂ => ?_⟩
    · rw [RSys.goOn_held, RSys.goOn_todo, RSys.hold_todo, RSys.hold_held]
      by_cases e : g' = g
      · subst e
        by_cases el : l' = l
        · subst el; simpa using h
        · simpa [el, Ne.symm el] using h
      · simpa [e] using hg g'
    · rw [RSys.goOn_held, RSys.hold_held] at h₁ ⊢
      by_cases e : l = l'
      · subst e
        by_cases e1 : g₁ = g
        · subst e1
          simp [h₂, hf g₂]
        · simp only [e1, false_and, if_false] at h₁
          rw [hf g₁] at h₁; cases h₁
      · simp only [e, and_false, if_false] at h₁ ⊢
        exact hm _ _ h₁ h₂
  | runlock g l' rest ht =>
    have h := hg g
    rw [ht] at h
    simp only [guardedBy] at h
    refine ⟨fun g' => ?_, fun g₁ g₂ h₁ h₂ => ?_⟩
    · rw [RSys.goOn_held, RSys.goOn_todo, RSys.hold_todo, RSys.hold_held]
      by_cases e : g' = g
      · subst e
        by_cases el : l' = l
        · subst el; simpa using h
        · simpa [el, Ne.symm el] using h
      · simpa [e] using hg g'
    · rw [RSys.goOn_held, RSys.hold_held] at h₁ ⊢
      split at h₁
      · cases h₁
      · split
        · rfl
        · exact hm _ _ h₁ h₂
  | unlock g l' rest ht =>
    have h := hg g
    rw [ht] at h
    simp only [guardedBy] at h
    refine ⟨fun g' => ?_, fun g₁ g₂ h₁ h₂ => ?_⟩
    · rw [RSys.goOn_held, RSys.goOn_todo, RSys.hold_todo, RSys.hold_held]
      by_cases e : g' = g
      · subst e
        by_cases el : l' = l
        · subst el; simpa using h
        · simpa [el, Ne.symm el] using h
      · simpa [e] using hg g'
    · rw [RSys.goOn_held, RSys.hold_held] at h₁ ⊢
      split at h₁
      · cases h₁
      · split
        · rfl
        · exact hm _ _ h₁ h₂
  | read g f' rest ht =>
    refine ⟨fun g' => ?_, hm⟩
    have h := hg g
    rw [ht] at h
    simp only [guardedBy, Bool.and_eq_true] at h
    rw [RSys.goOn_held, RSys.goOn_todo]
    split
    · rename_i e; subst e; exact h.2
    · exact hg g'
  | write g f' rest ht =>
    refine ⟨fun g' => ?_, hm⟩
    have h := hg g
    rw [ht] at h
    simp only [guardedBy, Bool.and_eq_true] at h
    rw [RSys.goOn_held, RSys.goOn_todo]
    split
    · rename_i e; subst e; exact h.2
    · exact hg g'
  | fork g rest ht =>
    refine ⟨fun g' => ?_, hm⟩
    have h := hg g
    rw [ht] at h
    simp only [guardedBy] at h
    rw [RSys.goOn_held, RSys.goOn_todo]
    split
    · rename_i e; subst e; exact h
    · exact hg g'
  | done g rest ht =>
    refine ⟨fun g' => ?_, hm⟩
    have h := hg g
    rw [ht] at h
    simp only [guardedBy] at h
    rw [RSys.goOn_held, RSys.goOn_todo]
    split
    · rename_i e; subst e; exact h
    · exact hg g'
  | join g rest ht hf =>
    refine ⟨fun g' => ?_, hm⟩
    have h := hg g
    rw [ht] at h
    simp only [guardedBy] at h
    rw [RSys.goOn_held, RSys.goOn_todo]
    split
    · rename_i e; subst e; exact h
    · exact hg g'

theorem guarded_inv {prog : G → List (ROp L F) → Prop} {child : G → Bool} {f : F} {l : L} {r w : G → Bool}
    (hp : ∀ g seg, prog g seg → guardedBy f l (r g) (w g) .no seg = true) {s t : RSys G L F} (hi : GuardInv f l r w s) (hs : RSteps prog child s t) :
    GuardInv f l r w t := by
  induction hs with
  | refl => exact hi
  | step _ h ih => exact guarded_step hp ih h

theorem guard_init (f : F) (l : L) (r w : G → Bool) : GuardInv f l r w (RSys.init : RSys G L F) :=
  ⟨fun _ => rfl, fun _ _ h => by cases h⟩

/-- What a goroutine has left is the end of one of its pieces. -/
def SuffixInv (prog : G → List (ROp L F) → Prop) (s : RSys G L F) : Prop := ∀ g, s.todo g ≠ [] → ∃ pre, prog g (pre ++ s.todo g)

theorem suffix_pop {prog : G → List (ROp L F) → Prop} {s : RSys G L F} (hi : SuffixInv prog s) {g : G} {op : ROp L F} {rest : List (ROp L F)}
    (ht : s.todo g = op :: rest) {t : RSys G L F} (hb : t.todo = fun g' => if g' = g then rest else s.todo g') : SuffixInv prog t := by
  intro g' hn
  rw [hb] at hn ⊢
  by_cases e : g' = g
  · subst e
    obtain ⟨pre, hpre⟩ := hi g' (by rw [ht]; simp)
    refine ⟨pre ++ [op], ?_⟩
    rw [ht] at hpre
    simpa using hpre
  · simp only [e, if_false] at hn ⊢
    exact hi g' hn

theorem suffix_step {prog : G → List (ROp L F) → Prop} {child : G → Bool} {s t : RSys G L F} (hi : SuffixInv prog s) (hs : RStep prog child s t) : SuffixInv prog t := by
  cases hs with
  | enter g seg hps ht hc =>
    intro g' hn
    rw [RSys.goOn_todo] at hn ⊢
    by_cases e : g' = g
    · subst e; exact ⟨[], by simpa using hps⟩
    · simp only [e, if_false] at hn ⊢
      exact hi g' hn
  | rlock g l' rest ht hn hf => exact suffix_pop hi ht rfl
  | runlock g l' rest ht => exact suffix_pop hi ht rfl
  | lock g l' rest ht hf => exact suffix_pop hi ht rfl
  | unlock g l' rest ht => exact suffix_pop hi ht rfl
  | read g f' rest ht => exact suffix_pop hi ht rfl
  | write g f' rest ht => exact suffix_pop hi ht rfl
  | fork g rest ht => exact suffix_pop hi ht rfl
  | done g rest ht => exact suffix_pop hi ht rfl
  | join g rest ht hf => exact suffix_pop hi ht rfl

theorem suffix_inv {prog : G → List (ROp L F) → Prop} {child : G → Bool} {t : RSys G L F} (hs : RSteps prog child RSys.init t) : SuffixInv prog t := by
  have h : ∀ s t : RSys G L F, RSteps prog child s t → SuffixInv prog s → SuffixInv prog t := by
    intro s t hs
    induction hs with
    | refl => exact id
    | step _ h ih => exact fun hi => suffix_step (ih hi) h
  exact h _ _ hs (fun g hn => absurd rfl hn)

/-- While a goroutine of the group is busy, the one that started it waits; and only busy ones do anything. -/
def PhaseInv (p : G) (child : G → Bool) (s : RSys G L F) : Prop :=
  (∀ g, s.busy g = true → child g = true ∧ s.todo p = [.join]) ∧ (∀ g, child g = true → s.todo g ≠ [] → s.busy g = true)

/-- How the code uses the group: one goroutine starts it and waits, in one piece of code; the others call `Done` once, at the end. -/
structure GroupUse (prog : G → List (ROp L F) → Prop) (p : G) (child : G → Bool) : Prop where
  parent : child p = false
  fork : ∀ g pre rest, prog g (pre ++ .fork :: rest) → g = p ∧ pre = [] ∧ rest = [.join]
  join : ∀ g pre rest, prog g (pre ++ .join :: rest) → g = p ∧ pre = [.fork] ∧ rest = []
  done : ∀ g pre rest, prog g (pre ++ .done :: rest) → child g = true ∧ rest = []
  last : ∀ g seg, prog g seg → child g = true → ∃ pre, seg = pre ++ [.done]

theorem phase_step {prog : G → List (ROp L F) → Prop} {child : G → Bool} {p : G} (hu : GroupUse prog p child) {s t : RSys G L F} (hx : SuffixInv prog s)
    (hi : PhaseInv p child s) (hs : RStep prog child s t) : PhaseInv p child t := by
  obtain ⟨h1, h2⟩ := hi
  have pop : ∀ {g : G} {op : ROp L F} {rest : List (ROp L F)}, s.todo g = op :: rest → op ≠ .done → op ≠ .join → op ≠ .fork → ∀ {t : RSys G L F}, t.busy = s.busy →
      (t.todo = fun g' => if g' = g then rest else s.todo g') → PhaseInv p child t := by
    intro g op rest ht hd hj hf t hb htd
    refine ⟨fun g' hb' => ?_, fun g' hc hn => ?_⟩
    · rw [hb] at hb'
      obtain ⟨hc, hp⟩ := h1 g' hb'
      refine ⟨hc, ?_⟩
      rw [htd]
      by_cases e : p = g
      · subst e; rw [hp] at ht; injection ht with e1 e2; exact absurd e1.symm hj
      · simp only [e, if_false]; exact hp
    · rw [hb]
      rw [htd] at hn
      by_cases e : g' = g
      · subst e; exact h2 g' hc (by rw [ht]; simp)
      · simp only [e, if_false] at hn; exact h2 g' hc hn
  cases hs with
  | enter g seg hps ht hc =>
    refine ⟨fun g' hb' => ?_, fun g' hc' hn => ?_⟩
    · obtain ⟨hcc, hp⟩ := h1 g' hb'
      refine ⟨hcc, ?_⟩
      rw [RSys.goOn_todo]
      by_cases e : p = g
      · subst e; rw [hp] at ht; cases ht
      · simp only [e, if_false]; exact hp
    · rw [RSys.goOn_busy]
      by_cases e : g' = g
      · subst e; exact hc hc'
      · rw [RSys.goOn_todo] at hn
        simp only [e, if_false] at hn; exact h2 g' hc' hn
  | rlock g l' rest ht hn hf => exact pop ht (by simp) (by simp) (by simp) rfl rfl
  | runlock g l' rest ht => exact pop ht (by simp) (by simp) (by simp) rfl rfl
  | lock g l' rest ht hf => exact pop ht (by simp) (by simp) (by simp) rfl rfl
  | unlock g l' rest ht => exact pop ht (by simp) (by simp) (by simp) rfl rfl
  | read g f' rest ht => exact pop ht (by simp) (by simp) (by simp) rfl rfl
  | write g f' rest ht => exact pop ht (by simp) (by simp) (by simp) rfl rfl
  | fork g rest ht =>
    obtain ⟨pre, hpre⟩ := hx g (by rw [ht]; simp)
    rw [ht] at hpre
    obtain ⟨e1, e2, e3⟩ := hu.fork _ _ _ hpre
    subst e1
    refine ⟨fun g' hb' => ?_, fun g' hc' hn => ?_⟩
    · simp only [RSys.goOn_busy, Bool.or_eq_true] at hb'
      refine ⟨hb'.elim id (fun h => (h1 g' h).1), ?_⟩
      rw [RSys.goOn_todo, if_pos rfl, e3]
    · simp only [RSys.goOn_busy, hc', Bool.true_or]
  | done g rest ht =>
    obtain ⟨pre, hpre⟩ := hx g (by rw [ht]; simp)
    rw [ht] at hpre
    obtain ⟨e1, e2⟩ := hu.done _ _ _ hpre
    subst e2
    refine ⟨fun g' hb' => ?_, fun g' hc' hn => ?_⟩
    · simp only [RSys.goOn_busy] at hb'
      by_cases e : g' = g
      · simp [e] at hb'
      · simp only [e, if_false] at hb'
        obtain ⟨hcc, hp⟩ := h1 g' hb'
        refine ⟨hcc, ?_⟩
        rw [RSys.goOn_todo, if_neg]
        · exact hp
        · rintro rfl; rw [hu.parent] at e1; cases e1
    · rw [RSys.goOn_todo] at hn
      by_cases e : g' = g
      · simp [e] at hn
      · simp only [e, if_false] at hn
        simp only [RSys.goOn_busy, e, if_false]
        exact h2 g' hc' hn
  | join g rest ht hf =>
    refine ⟨fun g' hb' => ?_, fun g' hc' hn => ?_⟩
    · simp only [RSys.goOn_busy] at hb'
      rw [hf g'] at hb'; cases hb'
    · rw [RSys.goOn_todo] at hn
      by_cases e : g' = g
      · subst e
        exact h2 g' hc' (by rw [ht]; simp)
      · simp only [e, if_false] at hn
        exact h2 g' hc' hn

theorem phase_inv {prog : G → List (ROp L F) → Prop} {child : G → Bool} {p : G} (hu : GroupUse prog p child) {t : RSys G L F} (hs : RSteps prog child RSys.init t) :
    SuffixInv prog t ∧ PhaseInv p child t := by
  have h : ∀ s t : RSys G L F, RSteps prog child s t → (SuffixInv prog s ∧ PhaseInv p child s) → (SuffixInv prog t ∧ PhaseInv p child t) := by
    intro s t hs
    induction hs with
    | refl => exact id
    | step _ h ih => exact fun hi => ⟨suffix_step (ih hi).1 h, phase_step hu (ih hi).1 (ih hi).2 h⟩
  exact h _ _ hs ⟨fun g hn => absurd rfl hn, ⟨fun g h => by simp [RSys.init] at h, fun g _ hn => absurd rfl hn⟩⟩

theorem RSteps.trans' {prog : G → List (ROp L F) → Prop} {child : G → Bool} {s t u : RSys G L F} (h1 : RSteps prog child s t) (h2 : RSteps prog child t u) :
    RSteps prog child s u := by
  induction h2 with
  | refl => exact h1
  | step _ h ih => exact .step ih h

theorem goOn_goOn (s : RSys G L F) (g : G) (a b : List (ROp L F)) : (s.goOn g a).goOn g b = s.goOn g b := by
  unfold RSys.goOn
  congr 1
  funext g'
  by_cases e : g' = g <;> simp [e]

/-- A read or a write. -/
def ROp.isAccess : ROp L F → Bool
  | .read _ => true
  | .write _ => true
  | _ => false

/-- A goroutine may go on as long as it only reads and writes. -/
theorem walkOn {prog : G → List (ROp L F) → Prop} {child : G → Bool} (s : RSys G L F) (g : G) (pre rest : List (ROp L F)) (ha : pre.all ROp.isAccess = true)
    (ht : s.todo g = pre ++ rest) : RSteps prog child s (s.goOn g rest) := by
  have e0 : s.goOn g (pre ++ rest) = s := by
    unfold RSys.goOn
    have : (fun g' => if g' = g then pre ++ rest else s.todo g') = s.todo := by
      funext g'
      by_cases e : g' = g
      · rw [if_pos e, e, ht]
      · rw [if_neg e]
    rw [this]
  have h0 : RSteps prog child s (s.goOn g (pre ++ rest)) := by rw [e0]; exact .refl _
  suffices h : ∀ (pre' : List (ROp L F)), pre'.all ROp.isAccess = true → RSteps prog child s (s.goOn g (pre' ++ rest)) → RSteps prog child s (s.goOn g rest) from h pre ha h0
  intro pre'
  induction pre' with
  | nil => exact fun _ h => h
  | cons op ops ih =>
    intro ha h
    simp only [List.all_cons, Bool.and_eq_true] at ha
    refine ih ha.2 ?_
    have hx : (s.goOn g (op :: ops ++ rest)).todo g = op :: (ops ++ rest) := by simp [RSys.goOn]
    have hy := goOn_goOn s g (op :: ops ++ rest) (ops ++ rest)
    cases op with
    | read f => rw [← hy]; exact .step h (.read g f _ hx)
    | write f => rw [← hy]; exact .step h (.write g f _ hx)
    | _ => simp [ROp.isAccess] at ha

/-- A goroutine may enter a piece of code and go through it as long as it only reads and writes. -/
theorem walk {prog : G → List (ROp L F) → Prop} {child : G → Bool} (s : RSys G L F) (g : G) (pre rest : List (ROp L F)) (hp : prog g (pre ++ rest)) (ha : pre.all ROp.isAccess = true)
    (ht : s.todo g = []) (hc : child g = true → s.busy g = true) : RSteps prog child s (s.goOn g rest) := by
  have h := RSteps.trans' (.step (.refl _) (.enter (child := child) g _ hp ht hc)) (walkOn (s.goOn g (pre ++ rest)) g pre rest ha (by simp [RSys.goOn]))
  rwa [goOn_goOn] at h

theorem last_done (pre rest a : List (ROp L F)) (ha : .done ∉ a) (e : pre ++ ROp.done :: rest = a ++ [.done]) : rest = [] := by
  induction pre generalizing a with
  | nil =>
    cases a with
    | nil => simpa using e
    | cons x xs => simp only [List.nil_append, List.cons_append, List.cons.injEq] at e; exact absurd (by rw [e.1]; simp) ha
  | cons y ys ih =>
    cases a with
    | nil => simp at e
    | cons x xs =>
      simp only [List.cons_append, List.cons.injEq] at e
      exact ih xs (fun h => ha (List.mem_cons_of_mem _ h)) e.2

end StayRTR
