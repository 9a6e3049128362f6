import Verif.Model.MonTime
import Verif.Props.MonGo

/-!
# C171: when rtrmon asks a cache
-/

namespace StayRTR

namespace Spec

/-- A Serial Query (RFC 8210 5.3). -/
def isSerialQuery : Pdu → Bool
  | .serialQuery .. => true
  | _ => false

/-- The Serial Queries of a list. -/
def polls (l : List Pdu) : Nat := l.countP isSerialQuery

/-- The intervals of an End of Data (RFC 8210 5.8). -/
structure Intervals where
  refresh : U32
  retry : U32
  expire : U32
  deriving DecidableEq, Repr

/-- What an event says of the intervals, and when. -/
def endOf : MonEvent → Option (Int × Intervals)
  | .pdu now (.endOfData _ _ _ refresh retry expire) => some (now, ⟨refresh, retry, expire⟩)
  | _ => none

/-- The last End of Data handled: when, and the intervals it gave. -/
def lastEnd (l : List MonEvent) : Option (Int × Intervals) := l.reverse.findSome? endOf

end Spec

open Spec

namespace MonTimed

/-- The three phases of `continuousRTR` as to its timer. -/
inductive Phase where
  | idle
  | waiting
  | firing
  deriving DecidableEq

/-- Which one it is in. -/
def phaseOf : Ticker → Phase
  | .waiting _ => .waiting
  | .fire => .firing
  | .gotSid _ => .firing
  | .gotBoth _ _ => .firing
  | .sending _ => .firing
  | _ => .idle

theorem enqueue_polls {p : Pdu} {c c' : CConn} (h : c.enqueue p = some c') :
    polls c'.queued = polls c.queued + (if isSerialQuery p then 1 else 0) ∧ c'.ticker = c.ticker := by
  rcases MonGo.enqueue_cases h with ⟨_, rfl⟩ | ⟨_, _, rfl⟩ <;> simp [polls, List.countP_append, List.countP_singleton]

theorem sendStep_polls {f : Bool} {c c' : CConn} (h : c.sendStep f = some c') : c'.queued = c.queued ∧ c'.ticker = c.ticker := by
  unfold CConn.sendStep at h
  split at h <;> (try split at h) <;> simp at h <;> subst h <;> exact ⟨rfl, rfl⟩

/-- What a move does to the phase and the queries of session `k`. -/
inductive Change (k : Nat) (m : GoMove) (c c' : CConn) : Prop where
  | same (ht : c'.ticker = c.ticker) (hq : polls c'.queued = polls c.queued)
  | fresh (ht : phaseOf c'.ticker = .idle) (hq : polls c'.queued = 0)
  | rest (ht : phaseOf c'.ticker = .idle) (hq : polls c'.queued = polls c.queued) (hn : phaseOf c.ticker ≠ .firing)
  | arm (hm : m = .tick k) (hl : c.ticker = .loop) (ht : phaseOf c'.ticker = .waiting) (hq : polls c'.queued = polls c.queued)
  | fire (hm : m = .timer k) (hw : phaseOf c.ticker = .waiting) (ht : phaseOf c'.ticker = .firing) (hq : polls c'.queued = polls c.queued)
  | go (hl : phaseOf c.ticker = .firing) (ht : phaseOf c'.ticker = .firing) (hq : polls c'.queued = polls c.queued)
  | sent (hl : phaseOf c.ticker = .firing) (ht : phaseOf c'.ticker = .idle) (hq : polls c'.queued ≤ polls c.queued + 1)

theorem upd_conns (s : MonGo) (j k : Nat) (c : CConn) : (s.upd j c).conns k = if k = j then c else s.conns k := rfl

theorem Change.upd {s : MonGo} {m : GoMove} {j k : Nat} {c : CConn} (h : j = k → Change k m (s.conns k) c) :
    Change k m (s.conns k) (if k = j then c else s.conns k) := by
  split
  · exact h (by omega)
  · exact .same rfl rfl

theorem mainStep_change {br : Bool} {s t : MonGo} {m : GoMove} (h : s.mainStep br = some t) (k : Nat) : Change k m (s.conns k) (t.conns k) := by
  unfold MonGo.mainStep at h
  split at h
  · cases h; exact Change.upd fun _ => .fresh (by cases br <;> rfl) rfl
  · split at h <;> cases h
    · exact .same rfl rfl
    · exact Change.upd fun e => by subst e; exact .same rfl rfl
  · cases he : s.conn.enqueue (.resetQuery s.conn.version) with
    | none => rw [he] at h; cases h
    | some c =>
      rw [he] at h; cases h
      have := enqueue_polls he
      exact Change.upd fun e => by subst e; exact .same this.2 this.1
  · cases h; exact .same rfl rfl
  · cases h; exact Change.upd fun e => by subst e; exact .same rfl rfl
  · cases h; exact .same rfl rfl
  · split at h <;> cases h
    · exact .same rfl rfl
    · exact Change.upd fun e => by subst e; exact .same rfl rfl
  · cases h; exact Change.upd fun e => by subst e; exact .same rfl rfl
  · cases h; exact Change.upd fun e => by subst e; exact .same rfl rfl
  · split at h <;> cases h
    exact .same rfl rfl
  · cases h

theorem tickStep_change {s t : MonGo} {j : Nat} (h : s.tickStep j = some t) (k : Nat) : Change k (.tick j) (s.conns k) (t.conns k) := by
  unfold MonGo.tickStep at h
  split at h
  · rename_i e; cases h
    exact Change.upd fun i => by subst i; exact .rest rfl rfl (by rw [e]; decide)
  · rename_i e; split at h <;> cases h
    exact Change.upd fun i => by subst i; exact .rest rfl rfl (by rw [e]; simp [phaseOf])
  · rename_i e; cases h
    exact Change.upd fun i => by subst i; exact .arm rfl e rfl rfl
  · rename_i e; cases h
    exact Change.upd fun i => by subst i; exact .go (by rw [e]; rfl) rfl rfl
  · rename_i e; cases h
    exact Change.upd fun i => by subst i; exact .go (by rw [e]; rfl) rfl rfl
  · rename_i e; cases h
    exact Change.upd fun i => by subst i; exact .go (by rw [e]; rfl) rfl rfl
  · rename_i p e
    cases he : (s.conns j).enqueue p with
    | none => rw [he] at h; cases h
    | some c =>
      rw [he] at h; cases h
      have := enqueue_polls he
      refine Change.upd fun i => ?_
      subst i
      refine .sent (by rw [e]; rfl) rfl ?_
      show polls c.queued ≤ _
      rw [this.1]; split <;> omega
  · cases h

theorem exec_change {br : Bool} {s t : MonGo} {m : GoMove} (h : s.exec br m = some t) (k : Nat) : Change k m (s.conns k) (t.conns k) := by
  unfold MonGo.exec at h
  split at h
  · cases h
  · cases m with
    | main => exact mainStep_change h k
    | dialOk =>
      dsimp only at h; split at h <;> cases h
      exact Change.upd fun e => by subst e; exact .same rfl rfl
    | dialFails => dsimp only at h; split at h <;> cases h; exact .same rfl rfl
    | pdu p =>
      dsimp only at h; split at h <;> cases h
      exact Change.upd fun e => by subst e; exact .same rfl rfl
    | lost => dsimp only at h; split at h <;> cases h; exact .same rfl rfl
    | handle now => dsimp only at h; split at h <;> cases h; exact .same rfl rfl
    | send j f =>
      dsimp only at h
      cases he : (s.conns j).sendStep f with
      | none => rw [he] at h; cases h
      | some c =>
        rw [he] at h; cases h
        have := sendStep_polls he
        exact Change.upd fun e => by subst e; exact .same this.2 (by rw [this.1])
    | tick j => exact tickStep_change h k
    | timer j =>
      dsimp only at h; split at h <;> cases h
      rename_i e
      exact Change.upd fun i => by subst i; exact .fire rfl (by rw [e]; rfl) rfl rfl
    | stop j =>
      dsimp only at h
      split at h
      · rename_i e; split at h <;> cases h
        exact Change.upd fun i => by subst i; exact .rest rfl rfl (by rw [e]; simp [phaseOf])
      · rename_i e; split at h <;> cases h
        exact Change.upd fun i => by subst i; exact .rest rfl rfl (by rw [e]; simp [phaseOf])
      · cases h

/-- The parts of a move at a time. -/
theorem exec_parts {d : Int} {br : Bool} {s u : MonTimed} {t : Int} {m : GoMove} (h : s.exec d br t m = some u) :
    s.now ≤ t ∧ s.due d t m = true ∧ s.go.exec br m = some u.go ∧ u.now = t ∧
    u.slept = (if u.go.main = .sleeping ∧ s.go.main ≠ .sleeping then t else s.slept) ∧ ∀ k, u.armed k = if s.arms k m then t else s.armed k := by
  unfold exec at h
  split at h
  · rename_i g
    cases he : s.go.exec br m with
    | none => rw [he] at h; cases h
    | some g' => rw [he] at h; cases h; exact ⟨g.1, g.2, rfl, rfl, rfl, fun _ => rfl⟩
  · cases h

/-- The queries of session `k`. -/
def asked (s : MonTimed) (k : Nat) : Int := polls (s.go.conns k).queued

/-- The invariant of the rate. -/
structure Rate (d : Int) (k : Nat) (a s : MonTimed) : Prop where
  now : a.now ≤ s.now
  idle : phaseOf (s.go.conns k).ticker = .idle → 1 ≤ s.asked k - a.asked k → (s.asked k - a.asked k - 1) * d ≤ s.now - a.now
  waiting : phaseOf (s.go.conns k).ticker = .waiting → 1 ≤ s.asked k - a.asked k → (s.asked k - a.asked k - 1) * d ≤ s.armed k - a.now
  firing : phaseOf (s.go.conns k).ticker = .firing → (s.asked k - a.asked k) * d ≤ s.now - a.now
  armed : phaseOf (s.go.conns k).ticker = .waiting → 1 ≤ s.asked k - a.asked k → s.armed k ≤ s.now

theorem Rate.step {d : Int} (hd : 0 < d) {br : Bool} {k : Nat} {a s u : MonTimed} {t : Int} {m : GoMove} (g : Rate d k a s)
    (h : s.exec d br t m = some u) : Rate d k a u := by
  obtain ⟨h1, h2, h3, h4, -, h6⟩ := exec_parts h
  have hc := exec_change h3 k
  have h6 := h6 k
  have e1 : u.asked k = (polls (u.go.conns k).queued : Int) := rfl
  have e2 : s.asked k = (polls (s.go.conns k).queued : Int) := rfl
  have ha : 0 ≤ a.asked k := Int.natCast_nonneg _
  have gn := g.now
  have neg : ∀ x : Int, x ≤ 0 → x * d ≤ 0 := fun x hx => Int.mul_nonpos_of_nonpos_of_nonneg hx (by omega)
  have mono : ∀ x y : Int, x ≤ y → x * d ≤ y * d := fun x y hx => Int.mul_le_mul_of_nonneg_right hx (by omega)
  cases hc with
  | same ht hq =>
    have e : u.asked k = s.asked k := by rw [e1, e2, hq]
    refine ⟨by omega, ?_, ?_, ?_, ?_⟩ <;> simp only [ht, e, h4] <;> intro hp
    · intro hm; have := g.idle hp hm; omega
    · intro hm
      have hn : s.arms k m = false := by
        cases m <;> first | rfl | (simp only [arms, decide_eq_false_iff_not]; rintro ⟨-, hl⟩; rw [hl] at hp; simp [phaseOf] at hp)
      rw [h6, hn]; exact g.waiting hp hm
    · have := g.firing hp; omega
    · intro hm
      have hn : s.arms k m = false := by
        cases m <;> first | rfl | (simp only [arms, decide_eq_false_iff_not]; rintro ⟨-, hl⟩; rw [hl] at hp; simp [phaseOf] at hp)
      rw [h6, hn]; have := g.armed hp hm
      show s.armed k ≤ t
      omega
  | fresh ht hq =>
    have e : u.asked k = 0 := by rw [e1, hq]; rfl
    refine ⟨by omega, ?_, ?_, ?_, ?_⟩ <;> simp only [ht, e, h4] <;> intro hp
    · intro hm; omega
    · cases hp
    · cases hp
    · cases hp
  | rest ht hq hn =>
    have e : u.asked k = s.asked k := by rw [e1, e2, hq]
    refine ⟨by omega, ?_, ?_, ?_, ?_⟩ <;> simp only [ht, e, h4] <;> intro hp
    · intro hm
      cases hs : phaseOf (s.go.conns k).ticker with
      | idle => have := g.idle hs hm; omega
      | waiting => have := g.waiting hs hm; have := g.armed hs hm; omega
      | firing => exact absurd hs hn
    · cases hp
    · cases hp
    · cases hp
  | arm hm hl ht hq =>
    have e : u.asked k = s.asked k := by rw [e1, e2, hq]
    have ha : s.arms k m = true := by subst hm; simp [arms, hl]
    refine ⟨by omega, ?_, ?_, ?_, ?_⟩ <;> simp only [ht, e, h4] <;> intro hp
    · cases hp
    · intro hx
      rw [h6, ha]
      have := g.idle (by rw [hl]; rfl) hx
      show _ ≤ t - a.now
      omega
    · cases hp
    · intro _; rw [h6, ha]; exact Int.le_refl t
  | fire hm hw ht hq =>
    have e : u.asked k = s.asked k := by rw [e1, e2, hq]
    refine ⟨by omega, ?_, ?_, ?_, ?_⟩ <;> simp only [ht, e, h4] <;> intro hp
    · cases hp
    · cases hp
    · subst hm
      have hd2 : s.armed k + d ≤ t := by simpa [due] using h2
      by_cases hx : 1 ≤ s.asked k - a.asked k
      · have := g.waiting hw hx
        have := Int.sub_mul (s.asked k - a.asked k) 1 d
        omega
      · have := neg (s.asked k - a.asked k) (by omega); omega
    · cases hp
  | go hl ht hq =>
    have e : u.asked k = s.asked k := by rw [e1, e2, hq]
    refine ⟨by omega, ?_, ?_, ?_, ?_⟩ <;> simp only [ht, e, h4] <;> intro hp
    · cases hp
    · cases hp
    · have := g.firing hl; omega
    · cases hp
  | sent hl ht hq =>
    have e : u.asked k ≤ s.asked k + 1 := by rw [e1, e2]; exact_mod_cast hq
    refine ⟨by omega, ?_, ?_, ?_, ?_⟩ <;> simp only [ht, h4] <;> intro hp
    · intro hm
      have := g.firing hl
      have := mono (u.asked k - a.asked k - 1) (s.asked k - a.asked k) (by omega)
      omega
    · cases hp
    · cases hp
    · cases hp

theorem Rate.runs {d : Int} (hd : 0 < d) {br : Bool} {k : Nat} {a s : MonTimed} (h : Runs d br a s) : Rate d k a s := by
  induction h with
  | refl =>
    refine ⟨Int.le_refl _, ?_, ?_, ?_, ?_⟩ <;> intros <;> omega
  | tail _ t m e ih => exact ih.step hd e

theorem Runs.now {d : Int} {br : Bool} {a s : MonTimed} (h : Runs d br a s) : a.now ≤ s.now := by
  induction h with
  | refl => exact Int.le_refl _
  | tail _ t m e ih => have := exec_parts e; omega

/-- Only `mainStep` from `sleeping` makes a new session. -/
theorem exec_cur {br : Bool} {s t : MonGo} {m : GoMove} (h : s.exec br m = some t) :
    (t.cur = s.cur ∧ (t.main = .sleeping → s.main = .sleeping ∨ s.main = .returned)) ∨
    (m = .main ∧ s.main = .sleeping ∧ t.cur = s.cur + 1 ∧ t.main = .dialing) := by
  unfold MonGo.exec at h
  split at h
  · cases h
  · cases m with
    | main =>
      dsimp only at h
      unfold MonGo.mainStep at h
      split at h
      · cases h; exact .inr ⟨rfl, by assumption, rfl, rfl⟩
      · split at h <;> cases h <;> exact .inl ⟨rfl, fun e => by cases e⟩
      · cases he : s.conn.enqueue (.resetQuery s.conn.version) with
        | none => rw [he] at h; cases h
        | some c => rw [he] at h; cases h; exact .inl ⟨rfl, fun e => by cases e⟩
      · cases h; exact .inl ⟨rfl, fun e => by dsimp only at e; split at e <;> cases e⟩
      · cases h; exact .inl ⟨rfl, fun e => by cases e⟩
      · cases h; exact .inl ⟨rfl, fun e => by cases e⟩
      · split at h <;> cases h <;> exact .inl ⟨rfl, fun e => by cases e⟩
      · cases h; exact .inl ⟨rfl, fun e => by cases e⟩
      · cases h; exact .inl ⟨rfl, fun e => by dsimp only at e; split at e <;> cases e⟩
      · split at h <;> cases h
        exact .inl ⟨rfl, fun _ => .inr (by assumption)⟩
      · cases h
    | dialOk => dsimp only at h; split at h <;> cases h; exact .inl ⟨rfl, fun e => by cases e⟩
    | dialFails => dsimp only at h; split at h <;> cases h; exact .inl ⟨rfl, fun e => by cases e⟩
    | pdu p => dsimp only at h; split at h <;> cases h; exact .inl ⟨rfl, fun e => by cases e⟩
    | lost => dsimp only at h; split at h <;> cases h; exact .inl ⟨rfl, fun e => by cases e⟩
    | handle now =>
      dsimp only at h; split at h <;> cases h
      exact .inl ⟨rfl, fun e => by dsimp only at e; split at e <;> cases e⟩
    | send j f =>
      dsimp only at h
      cases he : (s.conns j).sendStep f with
      | none => rw [he] at h; cases h
      | some c => rw [he] at h; cases h; exact .inl ⟨rfl, fun e => .inl e⟩
    | tick j =>
      dsimp only at h
      unfold MonGo.tickStep at h
      split at h
      · cases h; exact .inl ⟨rfl, fun e => .inl e⟩
      · split at h <;> cases h; exact .inl ⟨rfl, fun e => .inl e⟩
      · cases h; exact .inl ⟨rfl, fun e => .inl e⟩
      · cases h; exact .inl ⟨rfl, fun e => .inl e⟩
      · cases h; exact .inl ⟨rfl, fun e => .inl e⟩
      · cases h; exact .inl ⟨rfl, fun e => .inl e⟩
      · rename_i p _
        cases he : (s.conns j).enqueue p with
        | none => rw [he] at h; cases h
        | some c => rw [he] at h; cases h; exact .inl ⟨rfl, fun e => .inl e⟩
      · cases h
    | timer j => dsimp only at h; split at h <;> cases h; exact .inl ⟨rfl, fun e => .inl e⟩
    | stop j =>
      dsimp only at h
      split at h
      · split at h <;> cases h; exact .inl ⟨rfl, fun e => .inl e⟩
      · split at h <;> cases h; exact .inl ⟨rfl, fun e => .inl e⟩
      · cases h

/-- The invariant of the sessions. -/
structure Pace (d : Int) (a s : MonTimed) : Prop where
  now : a.now ≤ s.now
  cur : a.go.cur ≤ s.go.cur
  all : a.go.cur + 1 ≤ s.go.cur → ((s.go.cur : Int) - a.go.cur - 1) * d ≤ s.now - a.now
  sleeping : a.go.cur + 1 ≤ s.go.cur → s.go.main = .sleeping → ((s.go.cur : Int) - a.go.cur - 1) * d ≤ s.slept - a.now

theorem Pace.step {d : Int} {br : Bool} {a s u : MonTimed} {t : Int} {m : GoMove} (g : Pace d a s)
    (h : s.exec d br t m = some u) : Pace d a u := by
  obtain ⟨h1, h2, h3, h4, h5, -⟩ := exec_parts h
  have gn := g.now
  rcases exec_cur h3 with ⟨hc, hm⟩ | ⟨rfl, hs, hc, hm⟩
  · refine ⟨by omega, by rw [hc]; exact g.cur, ?_, ?_⟩ <;> rw [hc]
    · intro hx; have := g.all hx; omega
    · intro hx hu
      by_cases hs : s.go.main = .sleeping
      · rw [h5, if_neg (fun x => x.2 hs)]; exact g.sleeping hx hs
      · rw [h5, if_pos ⟨hu, hs⟩]; have := g.all hx; omega
  · have hg := g.cur
    refine ⟨by omega, by omega, ?_, fun _ e => by rw [hm] at e; cases e⟩
    intro _
    rw [hc, h4]
    have e : (((s.go.cur + 1 : Nat) : Int) - a.go.cur - 1) = (s.go.cur : Int) - a.go.cur := by omega
    rw [e]
    by_cases hx : a.go.cur + 1 ≤ s.go.cur
    · have h7 := g.sleeping hx hs
      have h8 : s.go.cur = 0 ∨ s.slept + d ≤ t := by
        have := of_decide_eq_true (show decide _ = true from h2)
        exact this hs
      have := Int.sub_mul ((s.go.cur : Int) - a.go.cur) 1 d
      omega
    · have : (s.go.cur : Int) - a.go.cur = 0 := by omega
      rw [this]; omega

theorem Pace.runs {d : Int} {br : Bool} {a s : MonTimed} (h : Runs d br a s) : Pace d a s := by
  induction h with
  | refl => exact ⟨Int.le_refl _, Nat.le_refl _, fun _ => by omega, fun _ => by omega⟩
  | tail _ t m e ih => exact ih.step e

/-- Events and data change together. -/
theorem exec_events {br : Bool} {s t : MonGo} {m : GoMove} (h : s.exec br m = some t) :
    (t.client = s.client ∧ (t.events = s.events ∨ t.events = s.events ++ [.connect] ∨ t.events = s.events ++ [.connectFails] ∨ t.events = s.events ++ [.lost])) ∨
    ∃ now p, m = .handle now ∧ t.client = (monPdu now br s.client p).1 ∧ t.events = s.events ++ [.pdu now p] := by
  unfold MonGo.exec at h
  split at h
  · cases h
  · cases m with
    | main =>
      refine .inl ?_
      dsimp only at h
      unfold MonGo.mainStep at h
      split at h <;> (try split at h) <;> (try cases h) <;> (try exact ⟨rfl, .inl rfl⟩)
      cases he : s.conn.enqueue (.resetQuery s.conn.version) with
      | none => rw [he] at h; cases h
      | some c => rw [he] at h; cases h; exact ⟨rfl, .inl rfl⟩
    | dialOk => dsimp only at h; split at h <;> cases h; exact .inl ⟨rfl, .inr (.inl rfl)⟩
    | dialFails => dsimp only at h; split at h <;> cases h; exact .inl ⟨rfl, .inr (.inr (.inl rfl))⟩
    | pdu p => dsimp only at h; split at h <;> cases h; exact .inl ⟨rfl, .inl rfl⟩
    | lost => dsimp only at h; split at h <;> cases h; exact .inl ⟨rfl, .inr (.inr (.inr rfl))⟩
    | handle now =>
      dsimp only at h; split at h <;> cases h
      exact .inr ⟨now, _, rfl, rfl, rfl⟩
    | send j f =>
      dsimp only at h
      cases he : (s.conns j).sendStep f with
      | none => rw [he] at h; cases h
      | some c => rw [he] at h; cases h; exact .inl ⟨rfl, .inl rfl⟩
    | tick j =>
      refine .inl ?_
      dsimp only at h
      unfold MonGo.tickStep at h
      split at h <;> (try split at h) <;> (try cases h) <;> (try exact ⟨rfl, .inl rfl⟩)
      rename_i p _
      cases he : (s.conns j).enqueue p with
      | none => rw [he] at h; cases h
      | some c => rw [he] at h; cases h; exact ⟨rfl, .inl rfl⟩
    | timer j => dsimp only at h; split at h <;> cases h; exact .inl ⟨rfl, .inl rfl⟩
    | stop j =>
      dsimp only at h
      split at h <;> (try split at h) <;> (try cases h) <;> exact .inl ⟨rfl, .inl rfl⟩

end MonTimed

/-- **C171**, as far as it holds: with an interval on the command line that is positive, however the cache behaves, in any stretch of a run a session asks at most one Serial Query per interval and one more, whatever
`End of Data` said. -/
theorem C171_polls_partial {d : Int} (hd : 0 < d) {br : Bool} {a s : MonTimed} (h : MonTimed.Runs d br a s) (k : Nat) :
    ((polls (s.go.conns k).queued : Int) - polls (a.go.conns k).queued - 1) * d ≤ s.now - a.now := by
  have g := MonTimed.Rate.runs hd (k := k) h
  have hn := h.now
  show (s.asked k - a.asked k - 1) * d ≤ _
  by_cases hx : 1 ≤ s.asked k - a.asked k
  · cases hs : MonTimed.phaseOf (s.go.conns k).ticker with
    | idle => exact g.idle hs hx
    | waiting => have := g.waiting hs hx; have := g.armed hs hx; omega
    | firing => have := g.firing hs; have := Int.sub_mul (s.asked k - a.asked k) 1 d; omega
  · have := Int.mul_nonpos_of_nonpos_of_nonneg (show s.asked k - a.asked k - 1 ≤ 0 by omega) (Int.le_of_lt hd)
    omega

/-- And sessions are begun at most once per interval, and one more: also a cache that ends every session at once, or `BreakRTR`, does not make rtrmon connect faster. -/
theorem C171_sessions_partial {d : Int} (hd : 0 < d) {br : Bool} {a s : MonTimed} (h : MonTimed.Runs d br a s) :
    ((s.go.cur : Int) - a.go.cur - 1) * d ≤ s.now - a.now := by
  have g := MonTimed.Pace.runs h
  by_cases hx : a.go.cur + 1 ≤ s.go.cur
  · exact g.all hx
  · have := g.now
    have := Int.mul_nonpos_of_nonpos_of_nonneg (show (s.go.cur : Int) - a.go.cur - 1 ≤ 0 by omega) (Int.le_of_lt hd)
    omega

theorem Spec.lastEnd_snoc (l : List MonEvent) (e : MonEvent) : lastEnd (l ++ [e]) = match endOf e with | some x => some x | none => lastEnd l := by
  simp only [lastEnd, List.reverse_append, List.reverse_cons, List.reverse_nil, List.nil_append, List.cons_append, List.findSome?_cons]
  cases endOf e <;> rfl

/-- The intervals and the time in the metadata of a source (cmd/rtrmon/rtrmon.go:626-630) are these. -/
def Spec.Shows (c : MonClient) : Option (Int × Intervals) → Prop
  | none => c.lastUpdate = none ∧ c.rtrRefresh = 0 ∧ c.rtrRetry = 0 ∧ c.rtrExpire = 0
  | some (now, i) => c.lastUpdate = some now ∧ c.rtrRefresh = i.refresh ∧ c.rtrRetry = i.retry ∧ c.rtrExpire = i.expire

theorem Spec.Shows.record {c : MonClient} {x : Option (Int × Intervals)} (h : Shows c x) (f : U8) (k : Str) (e : MonEntry) : Shows (c.record f k e) x := by
  unfold MonClient.record
  split <;> exact h

/-- What is shown of the intervals is what the last `End of Data` said, with the time it was handled; before there has been one it is nothing. -/
theorem C171_shown {d : Int} {br : Bool} {t : Int} {s : MonTimed} (h : MonTimed.Runs d br (.start t) s) : Shows s.go.client (lastEnd s.go.events) := by
  induction h with
  | refl => exact ⟨rfl, rfl, rfl, rfl⟩
  | tail _ t m e ih =>
    obtain ⟨-, -, h3, -⟩ := MonTimed.exec_parts e
    rcases MonTimed.exec_events h3 with ⟨hc, he⟩ | ⟨now, p, -, hc, he⟩
    · rw [hc]
      rcases he with he | he | he | he <;> rw [he] <;> first | exact ih | (rw [lastEnd_snoc]; exact ih)
    · rw [he, lastEnd_snoc, hc]
      cases p with
      | endOfData => exact ⟨rfl, rfl, rfl, rfl⟩
      | ipv4Prefix v f p ml asn => exact ih.record _ _ _
      | ipv6Prefix v f p ml asn => exact ih.record _ _ _
      | routerKey v f ski asn spki => exact ih.record _ _ _
      | _ => exact ih

/-- The data do not change unless a PDU is handled, however long that takes. -/
theorem C171_kept {d : Int} {br : Bool} {a s : MonTimed} (h : MonTimed.Runs d br a s) (he : ∀ now p, .pdu now p ∉ s.go.events.drop a.go.events.length) :
    s.go.client = a.go.client := by
  have pre : ∀ {s}, MonTimed.Runs d br a s → a.go.events <+: s.go.events := by
    intro s h
    induction h with
    | refl => exact List.prefix_refl _
    | tail _ t m e ih =>
      obtain ⟨-, -, h3, -⟩ := MonTimed.exec_parts e
      rcases MonTimed.exec_events h3 with ⟨-, hx | hx | hx | hx⟩ | ⟨now, p, -, -, hx⟩ <;> rw [hx] <;> first | exact ih | exact ih.trans (List.prefix_append _ _)
  induction h with
  | refl => rfl
  | tail h t m e ih =>
    obtain ⟨-, -, h3, -⟩ := MonTimed.exec_parts e
    have hl := (pre h).length_le
    rcases MonTimed.exec_events h3 with ⟨hc, hx⟩ | ⟨now, p, -, -, hx⟩
    · rw [hc]; apply ih
      intro now p hp
      apply he now p
      rcases hx with hx | hx | hx | hx <;> rw [hx] <;> first | exact hp | (rw [List.drop_append_of_le_length hl]; exact List.mem_append_left _ hp)
    · exact absurd (by rw [hx, List.drop_append_of_le_length hl]; simp) (he now p)

/-- A schedule that is possible is a run. -/
theorem MonTimed.runs_sched {d : Int} {br : Bool} : ∀ (l : List (Int × GoMove)) {a s u : MonTimed}, MonTimed.Runs d br a s → s.sched d br l = some u → MonTimed.Runs d br a u
  | [], a, s, u, hr, h => by cases h; exact hr
  | (t, m) :: l, a, s, u, hr, h => by
    unfold MonTimed.sched at h
    cases e : s.exec d br t m with
    | none => rw [e] at h; cases h
    | some v => rw [e] at h; exact MonTimed.runs_sched l (hr.tail t m e) h

/-- Moves at one time. -/
def atTime (t : Int) (l : List GoMove) : List (Int × GoMove) := l.map fun m => (t, m)

/-- 600 seconds, the default of `-primary.refresh` and `-secondary.refresh` (cmd/rtrmon/rtrmon.go:66, 77). -/
def tenMinutes : Int := 600 * 1000000000

/-- A session with one `End of Data`, all at time 0: a Reset Query is sent and answered with one VRP; the cache asks for 3600 seconds between polls and lets the data be used for 7200. -/
def exSession : List (Int × GoMove) :=
  atTime 0 (goUp ++ goTicker 1 ++ goWrite 1 ++ goRead (.cacheResponse 1 7) ++ goRead (.ipv4Prefix 1 1 ⟨.v4 0x0a000000#32, 8⟩ 8 64500) ++ goRead (.endOfData 1 7 100 3600 600 7200))

theorem MonTimed.exists_sched {d : Int} {br : Bool} {t : Int} (l l' : List (Int × GoMove)) {P : MonTimed → MonTimed → Bool}
    (h : ((MonTimed.start t).sched d br l).any (fun a => (a.sched d br l').any (P a)) = true) :
    ∃ a s, MonTimed.Runs d br (.start t) a ∧ MonTimed.Runs d br a s ∧ P a s = true := by
  cases e : (MonTimed.start t).sched d br l with
  | none => rw [e] at h; cases h
  | some a =>
    rw [e] at h
    cases e' : a.sched d br l' with
    | none => simp [e'] at h
    | some s => exact ⟨a, s, runs_sched l .refl e, runs_sched l' .refl e', by simpa [e'] using h⟩

/-- **C171** is false as to the Refresh Interval: the cache is asked again after the interval of the command line, ten minutes by default, though it said an hour ("The router SHOULD NOT poll the cache sooner than indicated by this
parameter", RFC 8210 6) and nothing came from it since. -/
theorem C171_refresh_false : ∃ a s, MonTimed.Runs tenMinutes false (.start 0) a ∧ MonTimed.Runs tenMinutes false a s ∧ lastEnd a.go.events = some (0, ⟨3600, 600, 7200⟩) ∧
    s.now = 600 * 1000000000 ∧ polls (a.go.conns 1).wire = 0 ∧ polls (s.go.conns 1).wire = 1 ∧ s.go.client = a.go.client := by
  obtain ⟨a, s, h1, h2, h3⟩ := MonTimed.exists_sched (d := tenMinutes) (br := false) (t := 0) exSession (atTime tenMinutes (goTimer 1 ++ goWrite 1))
    (P := fun a s => decide (lastEnd a.go.events = some (0, ⟨3600, 600, 7200⟩) ∧
    s.now = 600 * 1000000000 ∧ polls (a.go.conns 1).wire = 0 ∧ polls (s.go.conns 1).wire = 1 ∧ s.go.client = a.go.client)) (by decide +kernel)
  exact ⟨a, s, h1, h2, of_decide_eq_true h3⟩

/-- And as to the Expire Interval: data are shown a year after the End of Data that allowed two hours ("The router MUST NOT retain the data past the time indicated by this parameter"), the cache having answered nothing since although it was asked. -/
theorem C171_expire_false : ∃ a s, MonTimed.Runs tenMinutes false (.start 0) a ∧ MonTimed.Runs tenMinutes false a s ∧ lastEnd s.go.events = some (0, ⟨3600, 600, 7200⟩) ∧
    s.now = 31536000 * 1000000000 ∧ polls (s.go.conns 1).wire = 2 ∧ s.go.main = .reading ∧ s.go.client.vrps.length = 1 := by
  obtain ⟨a, s, h1, h2, h3⟩ := MonTimed.exists_sched (d := tenMinutes) (br := false) (t := 0) exSession
    (atTime tenMinutes (goTimer 1 ++ goWrite 1 ++ [.tick 1]) ++ atTime (31536000 * 1000000000) (goTimer 1 ++ goWrite 1))
    (P := fun a s => decide (lastEnd s.go.events = some (0, ⟨3600, 600, 7200⟩) ∧
    s.now = 31536000 * 1000000000 ∧ polls (s.go.conns 1).wire = 2 ∧ s.go.main = .reading ∧ s.go.client.vrps.length = 1)) (by decide +kernel)
  exact ⟨a, s, h1, h2, of_decide_eq_true h3⟩

/-- A session that is up, at time 0. -/
structure MonTimed.At (c : CConn) (s : MonTimed) : Prop where
  now : s.now = 0
  armed : ∀ k, s.armed k = 0
  cur : s.go.cur = 1
  main : s.go.main = .reading
  conn : s.go.conns 1 = c
  events : s.go.events = [.connect]

/-- It at work: `sendLoop` and `continuousRTR` in these phases, `w` having been written and `q` queued. -/
def atWork (s : Sender) (t : Ticker) (q w : List Pdu) : CConn := ⟨true, 1, s, [], q, w, false, false, t, true, false⟩

theorem MonTimed.At.step {d : Int} (hd : d ≤ 0) {a s : MonTimed} {c c' : CConn} (h : MonTimed.Runs d false a s) (g : s.At c) {m : GoMove} (hm : m ≠ .main ∧ ∀ n, m ≠ .handle n)
    (he : s.go.exec false m = some (s.go.upd 1 c')) : ∃ u, MonTimed.Runs d false a u ∧ u.At c' := by
  have hdue : s.due d 0 m = true := by
    cases m with
    | main => exact absurd rfl hm.1
    | handle n => exact absurd rfl (hm.2 n)
    | timer k => simp [due, g.armed, hd]
    | _ => rfl
  refine ⟨⟨s.go.upd 1 c', 0, s.slept, fun k => 0⟩, h.tail 0 m ?_, rfl, fun _ => rfl, g.cur, g.main, rfl, g.events⟩
  unfold exec
  rw [if_pos ⟨Int.le_of_eq g.now, hdue⟩, he]
  simp only [Option.map_some, Option.some.injEq, MonTimed.mk.injEq, true_and]
  have hx : (s.go.upd 1 c').main = .reading := g.main
  refine ⟨by rw [hx, if_neg (by simp)], ?_⟩
  funext k
  rw [g.armed, ite_self]

theorem MonTimed.At.next {d : Int} (hd : d ≤ 0) {a s : MonTimed} {q w : List Pdu} (h : MonTimed.Runs d false a s) (g : s.At (atWork .parked .loop q w)) :
    ∃ u q' p, MonTimed.Runs d false a u ∧ isSerialQuery p = true ∧ u.At (atWork .parked .loop q' (w ++ [p])) := by
  obtain ⟨s, h, g⟩ := g.step hd h (m := .tick 1) (c' := atWork .parked (.waiting 1) q w) (by simp) (by simp [MonGo.exec, g.main, MonGo.tickStep, g.conn, g.cur, atWork])
  obtain ⟨s, h, g⟩ := g.step hd h (m := .timer 1) (c' := atWork .parked .fire q w) (by simp) (by simp [MonGo.exec, g.main, g.conn, atWork])
  obtain ⟨sid, hsid⟩ : ∃ x, x = s.go.client.sessionID := ⟨_, rfl⟩
  obtain ⟨s, h, g⟩ := g.step hd h (m := .tick 1) (c' := atWork .parked (.gotSid sid) q w) (by simp) (by simp [MonGo.exec, g.main, MonGo.tickStep, g.conn, atWork, hsid])
  obtain ⟨n, hn⟩ : ∃ x, x = s.go.client.serial := ⟨_, rfl⟩
  obtain ⟨s, h, g⟩ := g.step hd h (m := .tick 1) (c' := atWork .parked (.gotBoth sid n) q w) (by simp) (by simp [MonGo.exec, g.main, MonGo.tickStep, g.conn, atWork, hn])
  obtain ⟨s, h, g⟩ := g.step hd h (m := .tick 1) (c' := atWork .parked (.sending (.serialQuery 1 sid n)) q w) (by simp) (by simp [MonGo.exec, g.main, MonGo.tickStep, g.conn, atWork])
  obtain ⟨s, h, g⟩ := g.step hd h (m := .tick 1) (c' := atWork (.writing (.serialQuery 1 sid n)) .loop (q ++ [.serialQuery 1 sid n]) w) (by simp)
    (by simp [MonGo.exec, g.main, MonGo.tickStep, g.conn, CConn.enqueue, atWork])
  obtain ⟨s, h, g⟩ := g.step hd h (m := .send 1 false) (c' := atWork .check .loop (q ++ [.serialQuery 1 sid n]) (w ++ [.serialQuery 1 sid n])) (by simp)
    (by simp [MonGo.exec, g.main, g.conn, CConn.sendStep, atWork])
  obtain ⟨s, h, g⟩ := g.step hd h (m := .send 1 false) (c' := atWork .select .loop (q ++ [.serialQuery 1 sid n]) (w ++ [.serialQuery 1 sid n])) (by simp)
    (by simp [MonGo.exec, g.main, g.conn, CConn.sendStep, atWork])
  obtain ⟨s, h, g⟩ := g.step hd h (m := .send 1 false) (c' := atWork .parked .loop (q ++ [.serialQuery 1 sid n]) (w ++ [.serialQuery 1 sid n])) (by simp)
    (by simp [MonGo.exec, g.main, g.conn, CConn.sendStep, atWork])
  exact ⟨s, _, _, h, rfl, g⟩

theorem MonTimed.armed_atTime {d : Int} {br : Bool} : ∀ (l : List GoMove) {s u : MonTimed}, (∀ k, s.armed k = 0) → s.sched d br (atTime 0 l) = some u → ∀ k, u.armed k = 0
  | [], s, u, hs, h => by cases h; exact hs
  | m :: l, s, u, hs, h => by
    simp only [atTime, List.map_cons] at h
    unfold MonTimed.sched at h
    cases e : s.exec d br 0 m with
    | none => rw [e] at h; cases h
    | some v =>
      rw [e] at h
      refine MonTimed.armed_atTime l (fun k => ?_) h
      rw [(MonTimed.exec_parts e).2.2.2.2.2 k, hs k, ite_self]

/-- An interval that is not positive is accepted on the command line (`flag.Duration`, cmd/rtrmon/rtrmon.go:66, 77) and there is no limit to how often the cache is asked: any number of Serial Queries can reach it in no time, one after the other without
waiting for an answer. -/
theorem C171_zero_false {d : Int} (hd : d ≤ 0) (n : Nat) : ∃ s, MonTimed.Runs d false (.start 0) s ∧ s.now = 0 ∧ polls (s.go.conns 1).wire = n ∧ s.go.events = [.connect] := by
  have base : ∃ s, MonTimed.Runs d false (.start 0) s ∧ s.At (atWork .parked .loop [.resetQuery 1] [.resetQuery 1]) :=
    ⟨_, MonTimed.runs_sched (atTime 0 (goUp ++ [.tick 1, .tick 1] ++ goWrite 1 ++ [.send 1 false, .send 1 false])) .refl rfl, rfl,
      MonTimed.armed_atTime (d := d) (br := false) (goUp ++ [.tick 1, .tick 1] ++ goWrite 1 ++ [.send 1 false, .send 1 false]) (s := .start 0) (fun _ => rfl) rfl, rfl, rfl, rfl, rfl⟩
  have key : ∀ n, ∃ s q w, MonTimed.Runs d false (.start 0) s ∧ s.At (atWork .parked .loop q w) ∧ polls w = n := by
    intro n
    induction n with
    | zero => obtain ⟨s, h, g⟩ := base; exact ⟨s, _, _, h, g, rfl⟩
    | succ n ih =>
      obtain ⟨s, q, w, h, g, hw⟩ := ih
      obtain ⟨u, q', p, h', hp, g'⟩ := g.next hd h
      exact ⟨u, q', _, h', g', by rw [← hw]; simp [polls, List.countP_append, hp]⟩
  obtain ⟨s, q, w, h, g, hw⟩ := key n
  exact ⟨s, h, g.now, by rw [g.conn]; exact hw, g.events⟩

/-- The hypotheses of `C171_polls_partial` and `C171_sessions_partial` are met, and a poll per interval is possible: three in twenty minutes and a bit. -/
example : (((MonTimed.start 0).sched tenMinutes false (exSession ++ atTime tenMinutes (goTimer 1 ++ goWrite 1 ++ [.tick 1]) ++ atTime (2 * tenMinutes) (goTimer 1 ++ goWrite 1 ++ [.tick 1]) ++
    atTime (3 * tenMinutes) (goTimer 1))).map fun s => (s.now, polls (s.go.conns 1).queued, s.go.cur)) = some (1800000000000, 3, 1) := by decide +kernel

/-- Not earlier. -/
example : ((MonTimed.start 0).sched tenMinutes false (exSession ++ atTime (tenMinutes - 1) [.timer 1])).isNone = true := by decide +kernel

/-- A second session follows an Error Report after the interval. -/
example : (((MonTimed.start 0).sched tenMinutes false (exSession ++ atTime 5 goError ++ atTime (tenMinutes + 5) [.main])).map fun s => (s.go.cur, s.go.main)) = some (2, .dialing) := by decide +kernel

example : ((MonTimed.start 0).sched tenMinutes false (exSession ++ atTime 5 goError ++ atTime (tenMinutes + 4) [.main])).isNone = true := by decide +kernel

end StayRTR
