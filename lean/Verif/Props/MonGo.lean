import Verif.Model.MonGo
import Verif.Props.MonRtr

/-! C116: the goroutines of rtrmon's RTR client. -/

namespace StayRTR

namespace MonGo

/-- The sequential monitor of Model/Mon.lean after these events. -/
def after (br : Bool) (es : List MonEvent) : MonState := (MonState.init.run br es).1

theorem after_snoc (br : Bool) (es : List MonEvent) (e : MonEvent) : after br (es ++ [e]) = ((after br es).step br e).1 := by
  have : ∀ (l : List MonEvent) (s : MonState), (s.run br (l ++ [e])).1 = ((s.run br l).1.step br e).1 := by
    intro l
    induction l with
    | nil => intro s; simp [MonState.run]
    | cons x l ih => intro s; simp [MonState.run, ih]
  exact this es _

/-- A query a monitor may send: the Reset Query of its highest version, or a Serial Query whose session and serial it had at some time. -/
def QueryOk (br : Bool) (es : List MonEvent) (p : Pdu) : Prop :=
  p = .resetQuery 1 ∨ ∃ (v : U8) (a b : List MonEvent), (v = 0 ∨ v = 1) ∧ a <+: b ∧ b <+: es ∧
    p = .serialQuery v (after br a).client.sessionID (after br b).client.serial

theorem QueryOk.mono {br : Bool} {es fs : List MonEvent} {p : Pdu} (h : es <+: fs) : QueryOk br es p → QueryOk br fs p := by
  rintro (h1 | ⟨v, a, b, hv, hab, hb, e⟩)
  · exact .inl h1
  · exact .inr ⟨v, a, b, hv, hab, hb.trans h, e⟩

/-- What `continuousRTR` has read so far is right. -/
def TickerOk (br : Bool) (es : List MonEvent) : Ticker → Prop
  | .gotSid sid => ∃ a, a <+: es ∧ sid = (after br a).client.sessionID
  | .gotBoth sid n => ∃ a b, a <+: b ∧ b <+: es ∧ sid = (after br a).client.sessionID ∧ n = (after br b).client.serial
  | .sending p => QueryOk br es p ∧ p ≠ .resetQuery 1
  | _ => True

theorem TickerOk.mono {br : Bool} {es fs : List MonEvent} {t : Ticker} (h : es <+: fs) (g : TickerOk br es t) : TickerOk br fs t := by
  cases t with
  | gotSid sid => obtain ⟨a, ha, e⟩ := g; exact ⟨a, ha.trans h, e⟩
  | gotBoth sid n => obtain ⟨a, b, hab, hb, e⟩ := g; exact ⟨a, b, hab, hb.trans h, e⟩
  | sending p => exact ⟨g.1.mono h, g.2⟩
  | _ => trivial

/-- How many Reset Queries were queued. -/
def resets (c : CConn) : Nat := c.queued.countP (· = .resetQuery 1)

/-- The PDU inside `Write` (lib/client.go:82). -/
def inWrite (c : CConn) : List Pdu := match c.sender with
  | .writing p => [p]
  | _ => []

/-- What holds of every session at any time. -/
structure ConnOk (br : Bool) (es : List MonEvent) (c : CConn) : Prop where
  version : c.version = 0 ∨ c.version = 1
  pre : c.wire <+: c.queued
  all : c.broken = false → c.wire ++ inWrite c ++ c.queue = c.queued
  cap : c.queue.length ≤ 256
  parked : c.sender = .parked → c.queue = []
  queued : ∀ p ∈ c.queued, QueryOk br es p
  ticker : TickerOk br es c.ticker

theorem ConnOk.mono {br : Bool} {es fs : List MonEvent} {c : CConn} (h : es <+: fs) (g : ConnOk br es c) : ConnOk br fs c :=
  ⟨g.version, g.pre, g.all, g.cap, g.parked, fun p hp => (g.queued p hp).mono h, g.ticker.mono h⟩

theorem enqueue_cases {p : Pdu} {c c' : CConn} (h : c.enqueue p = some c') :
    (c.sender = .parked ∧ c' = { c with sender := .writing p, queued := c.queued ++ [p] }) ∨
    (c.sender ≠ .parked ∧ c.queue.length < 256 ∧ c' = { c with queue := c.queue ++ [p], queued := c.queued ++ [p] }) := by
  unfold CConn.enqueue at h
  split at h
  · left; exact ⟨by assumption, by simpa using h.symm⟩
  · split at h
    · right; exact ⟨by assumption, by assumption, by simpa using h.symm⟩
    · simp at h

theorem ConnOk.enqueue {br : Bool} {es : List MonEvent} {p : Pdu} {c c' : CConn} (g : ConnOk br es c) (hp : QueryOk br es p)
    (h : c.enqueue p = some c') : ConnOk br es c' := by
  have hq : ∀ q ∈ c.queued ++ [p], QueryOk br es q := by
    intro q hq
    rcases List.mem_append.1 hq with hq | hq
    · exact g.queued q hq
    · rw [List.mem_singleton.1 hq]; exact hp
  rcases enqueue_cases h with ⟨hs, rfl⟩ | ⟨hs, hl, rfl⟩
  · refine ⟨g.version, g.pre.trans (List.prefix_append _ _), ?_, g.cap, by simp, hq, g.ticker⟩
    intro hb
    have := g.all hb
    simp only [inWrite, hs, g.parked hs, List.append_nil] at this ⊢
    rw [this]
  · refine ⟨g.version, g.pre.trans (List.prefix_append _ _), ?_, ?_, fun h => absurd h hs, hq, g.ticker⟩
    · intro hb
      have := g.all hb
      simp only [inWrite] at this ⊢
      rw [← this]; simp
    · simp; omega

theorem ConnOk.sendStep {br : Bool} {es : List MonEvent} {f : Bool} {c c' : CConn} (g : ConnOk br es c)
    (h : c.sendStep f = some c') : ConnOk br es c' := by
  unfold CConn.sendStep at h
  split at h
  · rename_i hs
    simp only [Option.some.injEq] at h; subst h
    refine ⟨g.version, g.pre, ?_, g.cap, ?_, g.queued, g.ticker⟩
    · intro hb
      have := g.all hb
      simp only [inWrite, hs] at this ⊢
      cases hc : c.connected <;> simpa using this
    · dsimp only; split <;> simp
  · rename_i hs
    split at h
    · rename_i hq
      simp only [Option.some.injEq] at h; subst h
      refine ⟨g.version, g.pre, ?_, g.cap, fun _ => hq, g.queued, g.ticker⟩
      intro hb
      have := g.all hb
      simpa [inWrite, hs] using this
    · rename_i p q hq
      simp only [Option.some.injEq] at h; subst h
      refine ⟨g.version, g.pre, ?_, ?_, by simp, g.queued, g.ticker⟩
      · intro hb
        have := g.all hb
        simpa [inWrite, hs, hq] using this
      · have := g.cap; rw [hq] at this; simp at this ⊢; omega
  · simp at h
  · rename_i p hs
    split at h
    · simp only [Option.some.injEq] at h; subst h
      exact ⟨g.version, g.pre, by simp, g.cap, by simp, g.queued, g.ticker⟩
    · rename_i hb
      simp only [Option.some.injEq] at h; subst h
      have hb' : c.broken = false := by
        revert hb; cases c.broken <;> simp
      have := g.all hb'
      simp only [inWrite, hs] at this
      refine ⟨g.version, ⟨_, this⟩, ?_, g.cap, by simp, g.queued, g.ticker⟩
      intro _
      simpa [inWrite] using this
  · simp at h

/-- What each place in `Start` and the functions it calls knows; `m` is the sequential monitor. -/
def PhaseOk (c : CConn) (m : MonState) : MainPhase → Prop
  | .sleeping => m.session.connected = false ∧ m.ended = false ∧ c.closed = true
  | .dialing => m.session.connected = false ∧ m.ended = false ∧ c.unlockClosed = false ∧ c.qrtrClosed = false ∧ c.sender = .done ∧ c.version = 1
  | .unlocking => m.session = ⟨1, true⟩ ∧ m.ended = false ∧ c.unlockClosed = false ∧ c.qrtrClosed = false ∧ c.connected = true ∧ c.version = 1
  | .hello => m.session = ⟨1, true⟩ ∧ m.ended = false ∧ c.qrtrClosed = false ∧ c.connected = true ∧ c.version = 1
  | .check => m.ended = false ∧ if c.connected then m.session = ⟨c.version, true⟩ ∧ c.qrtrClosed = false
      else m.session.connected = false ∧ c.qrtrClosed = true ∧ c.closed = true
  | .reading => m.session = ⟨c.version, true⟩ ∧ m.ended = false ∧ c.qrtrClosed = false ∧ c.connected = true
  | .handling p => m.session.downgrade p = ⟨c.version, true⟩ ∧ m.session.connected = true ∧ m.ended = false ∧ c.qrtrClosed = false ∧ c.connected = true
  | .disc d r => m.session.connected = false ∧ m.ended = r ∧
      match d with
      | .drop => c.qrtrClosed = false
      | .look => c.qrtrClosed = false ∧ c.connected = false
      | .closing => c.qrtrClosed = false ∧ c.connected = false
      | .quit => c.qrtrClosed = true ∧ c.connected = false
      | .shut => c.qrtrClosed = true ∧ c.connected = false
  | .returned => m.session.connected = false ∧ m.ended = false ∧ c.qrtrClosed = true ∧ c.closed = true
  | .exited => m.ended = true
  | .crashed => False

/-- The session has sent its Reset Query. -/
def Greeted : MainPhase → Bool
  | .dialing | .unlocking | .hello => false
  | _ => true

/-- What holds at any time. -/
structure Ok (br : Bool) (s : MonGo) : Prop where
  data : s.client = (after br s.events).client
  phase : PhaseOk s.conn (after br s.events) s.main
  conns : ∀ k, ConnOk br s.events (s.conns k)
  old : ∀ k, k < s.cur → (s.conns k).closed = true
  most : ∀ k, resets (s.conns k) ≤ 1
  one : ∀ k, 1 ≤ k → k < s.cur → resets (s.conns k) = 1
  early : Greeted s.main = false → resets s.conn = 0
  late : Greeted s.main = true → s.main ≠ .exited → 1 ≤ s.cur → resets s.conn = 1

theorem Ok.init (br : Bool) : Ok br MonGo.init := by
  refine ⟨rfl, ⟨rfl, rfl, rfl⟩, ?_, ?_, ?_, ?_, ?_, ?_⟩
  · intro k; constructor <;> simp [MonGo.init, CConn.none, inWrite, TickerOk]
  · intro k h; rfl
  · intro k; exact Nat.zero_le _
  · intro k h h'; simp [MonGo.init] at h'
  · intro h; rfl
  · intro h h' h''; simp [MonGo.init] at h''

theorem conn_upd (s : MonGo) (k : Nat) (c : CConn) : (s.upd k c).conn = if k = s.cur then c else s.conn := by
  unfold MonGo.conn MonGo.upd; dsimp only; by_cases h : k = s.cur
  · simp [h]
  · have h' : s.cur ≠ k := fun e => h e.symm
    simp [h, h']

/-- The fields that `sendLoop` and `continuousRTR` leave alone. -/
structure Same (c c' : CConn) : Prop where
  connected : c'.connected = c.connected
  version : c'.version = c.version
  closed : c'.closed = c.closed
  unlock : c'.unlockClosed = c.unlockClosed
  qrtr : c'.qrtrClosed = c.qrtrClosed
  idle : c.sender = .done → c'.sender = .done
  resets : MonGo.resets c' = MonGo.resets c

theorem PhaseOk.same {c c' : CConn} {m : MonState} {ph : MainPhase} (h : Same c c') (g : PhaseOk c m ph) : PhaseOk c' m ph := by
  obtain ⟨h1, h2, h3, h4, h5, h6, h7⟩ := h
  cases ph with
  | disc d r => cases d <;> simp_all [PhaseOk]
  | _ => simp_all [PhaseOk]

/-- A step of `sendLoop` or `continuousRTR` keeps everything. -/
theorem Ok.other {br : Bool} {s : MonGo} {k : Nat} {c : CConn} (g : Ok br s) (hs : Same (s.conns k) c) (hc : ConnOk br s.events c) : Ok br (s.upd k c) := by
  have hr : ∀ j, MonGo.resets ((s.upd k c).conns j) = MonGo.resets (s.conns j) := by
    intro j
    simp only [MonGo.upd]
    split
    · rename_i h; rw [hs.resets, h]
    · rfl
  refine ⟨g.data, ?_, ?_, ?_, ?_, ?_, ?_, ?_⟩
  · rw [conn_upd]
    split
    · rename_i h
      exact g.phase.same (by rw [MonGo.conn, ← h]; exact hs)
    · exact g.phase
  · intro j
    simp only [MonGo.upd]
    split
    · exact hc
    · exact g.conns j
  · intro j hj
    simp only [MonGo.upd]
    split
    · rename_i h; rw [hs.closed, ← h]; exact g.old j hj
    · exact g.old j hj
  · intro j; rw [hr]; exact g.most j
  · intro j h h'; rw [hr]; exact g.one j h h'
  · intro h; exact (hr _).trans (g.early h)
  · intro h h' h''; exact (hr _).trans (g.late h h' h'')

theorem resets_snoc {c c' : CConn} {p : Pdu} (h : c.enqueue p = some c') : resets c' = resets c + if p = .resetQuery 1 then 1 else 0 := by
  rcases enqueue_cases h with ⟨_, rfl⟩ | ⟨_, _, rfl⟩ <;> simp [resets, List.countP_append, List.countP_cons]

theorem same_ticker (c : CConn) (t : Ticker) : Same c { c with ticker := t } := ⟨rfl, rfl, rfl, rfl, rfl, id, rfl⟩

theorem ConnOk.tickerTo {br : Bool} {es : List MonEvent} {c : CConn} {t : Ticker} (g : ConnOk br es c) (h : TickerOk br es t) :
    ConnOk br es { c with ticker := t } := ⟨g.version, g.pre, g.all, g.cap, g.parked, g.queued, h⟩

theorem same_enqueue {c c' : CConn} {p : Pdu} (h : c.enqueue p = some c') (hp : p ≠ .resetQuery 1) : Same c c' := by
  have hr := resets_snoc h
  rw [if_neg hp, Nat.add_zero] at hr
  rcases enqueue_cases h with ⟨hs, rfl⟩ | ⟨_, _, rfl⟩
  · exact ⟨rfl, rfl, rfl, rfl, rfl, fun e => (nomatch hs.symm.trans e), hr⟩
  · exact ⟨rfl, rfl, rfl, rfl, rfl, id, hr⟩

theorem same_send {c c' : CConn} {f : Bool} (h : c.sendStep f = some c') : Same c c' := by
  unfold CConn.sendStep at h
  split at h
  · rename_i hs
    simp only [Option.some.injEq] at h; subst h
    exact ⟨rfl, rfl, rfl, rfl, rfl, fun e => (nomatch hs.symm.trans e), rfl⟩
  · rename_i hs
    split at h <;> simp only [Option.some.injEq] at h <;> subst h <;>
      exact ⟨rfl, rfl, rfl, rfl, rfl, fun e => (nomatch hs.symm.trans e), rfl⟩
  · simp at h
  · rename_i hs
    split at h <;> simp only [Option.some.injEq] at h <;> subst h <;>
      exact ⟨rfl, rfl, rfl, rfl, rfl, fun e => (nomatch hs.symm.trans e), rfl⟩
  · simp at h

theorem Ok.tick {br : Bool} {s t : MonGo} {k : Nat} (g : Ok br s) (h : s.tickStep k = some t) : Ok br t := by
  have here : ∀ tk, TickerOk br s.events tk → Ok br (s.upd k { s.conns k with ticker := tk }) := fun tk ht =>
    g.other (same_ticker _ _) ((g.conns k).tickerTo ht)
  have hk := (g.conns k).ticker
  unfold MonGo.tickStep at h
  split at h
  · simp only [Option.some.injEq] at h; subst h; exact here _ trivial
  · split at h
    · simp only [Option.some.injEq] at h; subst h; exact here _ trivial
    · simp at h
  · simp only [Option.some.injEq] at h; subst h; exact here _ trivial
  · simp only [Option.some.injEq] at h; subst h
    exact here _ ⟨s.events, List.prefix_rfl, by rw [g.data]⟩
  · rename_i sid hs
    simp only [Option.some.injEq] at h; subst h
    rw [hs] at hk
    obtain ⟨a, ha, e⟩ := hk
    exact here _ ⟨a, s.events, ha, List.prefix_rfl, e, by rw [g.data]⟩
  · rename_i sid n hs
    simp only [Option.some.injEq] at h; subst h
    rw [hs] at hk
    obtain ⟨a, b, hab, hb, e, e'⟩ := hk
    exact here _ ⟨.inr ⟨_, a, b, (g.conns k).version, hab, hb, by rw [e, e']⟩, by simp⟩
  · rename_i p hs
    rw [hs] at hk
    cases he : (s.conns k).enqueue p with
    | none => rw [he] at h; cases h
    | some c =>
      rw [he] at h
      simp only [Option.map_some, Option.some.injEq] at h; subst h
      have h1 := same_enqueue he hk.2
      refine g.other (c := { c with ticker := .loop }) ?_ (((g.conns k).enqueue hk.1 he).tickerTo trivial)
      exact ⟨h1.connected, h1.version, h1.closed, h1.unlock, h1.qrtr, h1.idle, h1.resets⟩
  · simp at h

/-- `Start`'s goroutine changes the current session and where it is. -/
theorem Ok.here {br : Bool} {s : MonGo} {c : CConn} {ph : MainPhase} {d : MonClient} {es : List MonEvent} (g : Ok br s) (he : s.events <+: es)
    (hd : d = (after br es).client) (hp : PhaseOk c (after br es) ph) (hc : ConnOk br es c)
    (h1 : resets c ≤ 1) (h2 : Greeted ph = false → resets c = 0) (h3 : Greeted ph = true → ph ≠ .exited → 1 ≤ s.cur → resets c = 1) :
    Ok br { s.upd s.cur c with main := ph, client := d, events := es } := by
  refine ⟨hd, ?_, ?_, ?_, ?_, ?_, ?_, ?_⟩
  · simpa [MonGo.conn, MonGo.upd] using hp
  · intro j
    simp only [MonGo.upd]
    split
    · exact hc
    · exact (g.conns j).mono he
  · intro j hj
    have hj' : j < s.cur := hj
    simp only [MonGo.upd, if_neg (Nat.ne_of_lt hj')]
    exact g.old j hj
  · intro j
    simp only [MonGo.upd]
    split
    · exact h1
    · exact g.most j
  · intro j h h'
    have hj' : j < s.cur := h'
    simp only [MonGo.upd, if_neg (Nat.ne_of_lt hj')]
    exact g.one j h h'
  · intro h; simpa [MonGo.conn, MonGo.upd] using h2 h
  · intro h h' h''; simpa [MonGo.conn, MonGo.upd] using h3 h h' h''

theorem upd_self (s : MonGo) : s.upd s.cur s.conn = s := by
  unfold MonGo.upd MonGo.conn
  cases s
  simp only [MonGo.mk.injEq, true_and, and_true]
  funext j
  split
  · rename_i h; rw [h]
  · rfl

/-- The same where the session stays as it is. -/
theorem Ok.goto {br : Bool} {s : MonGo} {ph : MainPhase} {d : MonClient} {es : List MonEvent} (g : Ok br s) (he : s.events <+: es)
    (hd : d = (after br es).client) (hp : PhaseOk s.conn (after br es) ph)
    (h2 : Greeted ph = false → resets s.conn = 0) (h3 : Greeted ph = true → ph ≠ .exited → 1 ≤ s.cur → resets s.conn = 1) :
    Ok br { s with main := ph, client := d, events := es } := by
  have := g.here (c := s.conn) he hd hp ((g.conns _).mono he) (g.most _) h2 h3
  rw [upd_self] at this
  exact this

theorem Ok.mainStep {br : Bool} {s t : MonGo} (g : Ok br s) (h : s.mainStep br = some t) : Ok br t := by
  have gp := g.phase
  unfold MonGo.mainStep at h
  split at h
  · rename_i hm
    simp only [Option.some.injEq] at h; subst h
    rw [hm] at gp
    refine ⟨g.data, ?_, ?_, ?_, ?_, ?_, ?_, ?_⟩
    · simp only [MonGo.conn, MonGo.upd, if_true, PhaseOk]
      exact ⟨gp.1, gp.2.1, rfl, rfl, rfl, rfl⟩
    · intro k
      simp only [MonGo.upd]
      split
      · constructor <;> simp [CConn.new, inWrite]
        cases br <;> trivial
      · exact g.conns k
    · intro k hk
      have hk' : k < s.cur + 1 := hk
      simp only [MonGo.upd, if_neg (Nat.ne_of_lt hk')]
      rcases Nat.lt_succ_iff_lt_or_eq.1 hk' with h | h
      · exact g.old k h
      · rw [h]; exact gp.2.2
    · intro k
      simp only [MonGo.upd]
      split
      · simp [resets, CConn.new]
      · exact g.most k
    · intro k hk1 hk
      have hk' : k < s.cur + 1 := hk
      simp only [MonGo.upd, if_neg (Nat.ne_of_lt hk')]
      rcases Nat.lt_succ_iff_lt_or_eq.1 hk' with h | h
      · exact g.one k hk1 h
      · rw [h]; exact g.late (by rw [hm]; rfl) (by rw [hm]; simp) (h ▸ hk1)
    · intro _; simp [MonGo.conn, MonGo.upd, resets, CConn.new]
    · intro h; simp [Greeted] at h
  · rename_i hm
    rw [hm] at gp
    obtain ⟨g1, g2, g3, g4, g5, g6⟩ := gp
    rw [if_neg (by simp [g3])] at h
    simp only [Option.some.injEq] at h; subst h
    have hc : ConnOk br s.events s.conn := g.conns s.cur
    have he := g.early (by rw [hm]; rfl)
    exact g.here (ph := .hello) List.prefix_rfl g.data ⟨g1, g2, g4, g5, g6⟩
      ⟨hc.version, hc.pre, hc.all, hc.cap, hc.parked, hc.queued, hc.ticker⟩ (g.most _) (fun _ => he) (by simp [Greeted])
  · rename_i hm
    rw [hm] at gp
    obtain ⟨g1, g2, g3, g4, g5⟩ := gp
    have he := g.early (by rw [hm]; rfl)
    rw [g5] at h
    cases hq : s.conn.enqueue (.resetQuery 1) with
    | none => rw [hq] at h; cases h
    | some c =>
      rw [hq] at h
      simp only [Option.map_some, Option.some.injEq] at h; subst h
      have hr := resets_snoc hq
      rw [if_pos rfl, he] at hr
      have hf : c.connected = s.conn.connected ∧ c.version = s.conn.version ∧ c.qrtrClosed = s.conn.qrtrClosed := by
        rcases enqueue_cases hq with ⟨_, rfl⟩ | ⟨_, _, rfl⟩ <;> exact ⟨rfl, rfl, rfl⟩
      refine g.here (ph := .check) List.prefix_rfl g.data ?_ ((g.conns s.cur).enqueue (.inl rfl) hq) (by omega) (by simp [Greeted]) (fun _ _ _ => by omega)
      simp only [PhaseOk, hf.1, g4, hf.2.1, g5, hf.2.2, g3, if_true]
      exact ⟨g2, g1, trivial⟩
  · rename_i hm
    rw [hm] at gp
    simp only [Option.some.injEq] at h; subst h
    refine g.goto List.prefix_rfl g.data ?_ ?_ (fun _ _ => g.late (by rw [hm]; rfl) (by rw [hm]; simp))
    · obtain ⟨g1, g2⟩ := gp
      cases hc : s.conn.connected
      · simp only [hc, Bool.false_eq_true, if_false] at g2 ⊢
        exact ⟨g2.1, g1, g2.2⟩
      · simp only [hc, if_true] at g2 ⊢
        exact ⟨g2.1, g1, g2.2, hc⟩
    · intro h; revert h; split <;> simp [Greeted]
  · rename_i r hm
    rw [hm] at gp
    simp only [Option.some.injEq] at h; subst h
    have hc : ConnOk br s.events s.conn := g.conns s.cur
    exact g.here (ph := .disc .look r) List.prefix_rfl g.data ⟨gp.1, gp.2.1, gp.2.2, rfl⟩
      ⟨hc.version, hc.pre, hc.all, hc.cap, hc.parked, hc.queued, hc.ticker⟩ (g.most _) (by simp [Greeted])
      (fun _ _ => g.late (by rw [hm]; rfl) (by rw [hm]; simp))
  · rename_i r hm
    rw [hm] at gp
    simp only [Option.some.injEq] at h; subst h
    have hq : s.conn.qrtrClosed = false := gp.2.2.1
    rw [hq]
    exact g.goto List.prefix_rfl g.data ⟨gp.1, gp.2.1, gp.2.2⟩ (by simp [Greeted]) (fun _ _ => g.late (by rw [hm]; rfl) (by rw [hm]; simp))
  · rename_i r hm
    rw [hm] at gp
    rw [if_neg (by simp [gp.2.2.1])] at h
    simp only [Option.some.injEq] at h; subst h
    have hc : ConnOk br s.events s.conn := g.conns s.cur
    exact g.here (ph := .disc .quit r) List.prefix_rfl g.data ⟨gp.1, gp.2.1, rfl, gp.2.2.2⟩
      ⟨hc.version, hc.pre, hc.all, hc.cap, hc.parked, hc.queued, hc.ticker⟩ (g.most _) (by simp [Greeted])
      (fun _ _ => g.late (by rw [hm]; rfl) (by rw [hm]; simp))
  · rename_i r hm
    rw [hm] at gp
    simp only [Option.some.injEq] at h; subst h
    have hc : ConnOk br s.events s.conn := g.conns s.cur
    refine g.here (ph := .disc .shut r) List.prefix_rfl g.data ⟨gp.1, gp.2.1, gp.2.2⟩ ?_ (g.most _) (by simp [Greeted])
      (fun _ _ => g.late (by rw [hm]; rfl) (by rw [hm]; simp))
    refine ⟨hc.version, hc.pre, ?_, hc.cap, ?_, hc.queued, hc.ticker⟩
    · intro hb
      have := hc.all hb
      simp only [inWrite] at this ⊢
      by_cases hs : s.conn.sender = .parked
      · simp only [hs] at this
        simpa [hs] using this
      · simpa [hs] using this
    · dsimp only
      by_cases hs : s.conn.sender = .parked
      · simp [hs]
      · simp [hs]
  · rename_i r hm
    rw [hm] at gp
    simp only [Option.some.injEq] at h; subst h
    have hc : ConnOk br s.events s.conn := g.conns s.cur
    refine g.here (ph := if r then .exited else .check) List.prefix_rfl g.data ?_
      ⟨hc.version, hc.pre, hc.all, hc.cap, hc.parked, hc.queued, hc.ticker⟩ (g.most _) (by cases r <;> simp [Greeted])
      (fun _ _ => g.late (by rw [hm]; rfl) (by rw [hm]; simp))
    cases r
    · have h2 : s.conn.connected = false := gp.2.2.2
      simp only [PhaseOk, Bool.false_eq_true, if_false, h2]
      exact ⟨gp.2.1, gp.1, gp.2.2.1, trivial⟩
    · exact gp.2.1
  · rename_i hm
    rw [hm] at gp
    rw [if_pos gp.2.2.1] at h
    simp only [Option.some.injEq] at h; subst h
    exact g.goto (ph := .sleeping) List.prefix_rfl g.data ⟨gp.1, gp.2.1, gp.2.2.2⟩ (by simp [Greeted]) (fun _ _ => g.late (by rw [hm]; rfl) (by rw [hm]; simp))
  · simp at h

theorem monPdu_acts (now : Int) (br : Bool) (c : MonClient) (p : Pdu) :
    (monPdu now br c p).2 = [] ∨ (monPdu now br c p).2 = [.disconnect] := by
  unfold monPdu
  split <;> first
    | exact .inl rfl
    | exact .inr rfl
    | (cases br <;> simp)

theorem Ok.exec {br : Bool} {s t : MonGo} {m : GoMove} (g : Ok br s) (h : s.exec br m = some t) : Ok br t := by
  have gp := g.phase
  unfold MonGo.exec at h
  split at h
  · simp at h
  · cases m with
    | main => exact g.mainStep h
    | dialOk =>
      dsimp only at h
      split at h
      · rename_i hm
        simp only [Option.some.injEq] at h; subst h
        rw [hm] at gp
        obtain ⟨g1, g2, g3, g4, g5, g6⟩ := gp
        have hc : ConnOk br (s.events ++ [.connect]) s.conn := (g.conns s.cur).mono (List.prefix_append s.events [.connect])
        have he := g.early (by rw [hm]; rfl)
        have ha : after br (s.events ++ [.connect]) = { after br s.events with session := ⟨1, true⟩ } := by
          rw [after_snoc]
          simp [MonState.step, g1, g2, CSession.act, CSession.start]
        refine g.here (ph := .unlocking) (List.prefix_append _ _) (by rw [ha]; exact g.data) ?_ ?_ (g.most _) (fun _ => he) (by simp [Greeted])
        · rw [ha]; exact ⟨rfl, g2, g3, g4, rfl, g6⟩
        · refine ⟨hc.version, hc.pre, ?_, hc.cap, by simp, hc.queued, hc.ticker⟩
          intro hb
          have := hc.all hb
          simpa [inWrite, g5] using this
      · simp at h
    | dialFails =>
      dsimp only at h
      split at h
      · rename_i hm
        simp only [Option.some.injEq] at h; subst h
        rw [hm] at gp
        have ha : after br (s.events ++ [.connectFails]) = { after br s.events with ended := true } := by
          rw [after_snoc]
          simp [MonState.step, gp.1, gp.2.1]
        exact g.goto (ph := .exited) (List.prefix_append _ _) (by rw [ha]; exact g.data) (by rw [ha]; rfl) (by simp [Greeted]) (by simp)
      · simp at h
    | pdu p =>
      dsimp only at h
      split at h
      · rename_i hm
        simp only [Option.some.injEq] at h; subst h
        rw [hm] at gp
        obtain ⟨g1, g2, g3, g4⟩ := gp
        have hc : ConnOk br s.events s.conn := g.conns s.cur
        refine g.here (ph := .handling p) List.prefix_rfl g.data ⟨?_, congrArg CSession.connected g1, g2, g3, g4⟩
          ⟨?_, hc.pre, hc.all, hc.cap, hc.parked, hc.queued, hc.ticker⟩ (g.most _) (by simp [Greeted]) (fun _ _ => g.late (by rw [hm]; rfl) (by rw [hm]; simp))
        · show (after br s.events).session.downgrade p = _
          rw [g1]
          simp only [CSession.downgrade]
          split <;> rfl
        · dsimp only; split
          · exact .inl rfl
          · exact hc.version
      · simp at h
    | lost =>
      dsimp only at h
      split at h
      · rename_i hm
        simp only [Option.some.injEq] at h; subst h
        rw [hm] at gp
        obtain ⟨g1, g2, g3, g4⟩ := gp
        have ha : after br (s.events ++ [.lost]) = { after br s.events with session := { (after br s.events).session with connected := false }, ended := true } := by
          rw [after_snoc]
          simp [MonState.step, g1, g2]
        exact g.goto (ph := .disc .drop true) (List.prefix_append _ _) (by rw [ha]; exact g.data) (by rw [ha]; exact ⟨rfl, rfl, g3⟩) (by simp [Greeted])
          (fun _ _ => g.late (by rw [hm]; rfl) (by rw [hm]; simp))
      · simp at h
    | handle now =>
      dsimp only at h
      split at h
      · rename_i p hm
        simp only [Option.some.injEq] at h; subst h
        rw [hm] at gp
        obtain ⟨g1, g2, g3, g4, g5⟩ := gp
        have ha : (after br (s.events ++ [.pdu now p])) = ⟨(monPdu now br s.client p).1,
            ((⟨s.conn.version, true⟩ : CSession).act (monPdu now br s.client p).2).1, false⟩ := by
          rw [after_snoc]
          simp only [MonState.step, g3, g2, CSession.onPdu, g1, Bool.false_eq_true, if_false, if_true, ← g.data]
        refine g.goto (List.prefix_append _ _) (by rw [ha]) ?_ ?_ (fun _ _ => g.late (by rw [hm]; rfl) (by rw [hm]; simp))
        · rw [ha]
          rcases monPdu_acts now br s.client p with e | e <;> rw [e]
          · simp only [List.not_mem_nil, if_false, PhaseOk, g5, if_true]
            exact ⟨trivial, rfl, g4⟩
          · simp only [List.mem_singleton, if_true]
            exact ⟨rfl, rfl, g4⟩
        · intro h; revert h; split <;> simp [Greeted]
      · simp at h
    | send k f =>
      dsimp only at h
      cases he : (s.conns k).sendStep f with
      | none => rw [he] at h; cases h
      | some c =>
        rw [he] at h
        simp only [Option.map_some, Option.some.injEq] at h; subst h
        exact g.other (same_send he) ((g.conns k).sendStep he)
    | tick k => exact g.tick h
    | timer k =>
      dsimp only at h
      split at h
      · simp only [Option.some.injEq] at h; subst h
        exact g.other (same_ticker _ _) ((g.conns k).tickerTo trivial)
      · simp at h
    | stop k =>
      dsimp only at h
      split at h
      · split at h
        · simp only [Option.some.injEq] at h; subst h
          exact g.other (same_ticker _ _) ((g.conns k).tickerTo trivial)
        · simp at h
      · split at h
        · simp only [Option.some.injEq] at h; subst h
          exact g.other (same_ticker _ _) ((g.conns k).tickerTo trivial)
        · simp at h
      · simp at h

theorem Ok.runs {br : Bool} {s t : MonGo} (g : Ok br s) (h : Runs br s t) : Ok br t := by
  induction h with
  | refl => exact g
  | tail _ m e ih => exact ih.exec e

theorem runs_sched {br : Bool} : ∀ (ms : List GoMove) {s t : MonGo}, s.sched br ms = some t → Runs br s t := by
  have trans : ∀ {s t u : MonGo}, Runs br s t → Runs br t u → Runs br s u := by
    intro s t u h h'
    induction h' with
    | refl => exact h
    | tail _ m e ih => exact .tail ih m e
  intro ms
  induction ms with
  | nil => intro s t h; simp only [sched, Option.some.injEq] at h; subst h; exact .refl
  | cons m ms ih =>
    intro s t h
    simp only [sched] at h
    cases he : s.exec br m with
    | none => rw [he] at h; cases h
    | some u =>
      rw [he] at h
      exact trans (.tail .refl m he) (ih h)

/-- What a step does to a session that is not the current one. -/
theorem exec_old {br : Bool} {s t : MonGo} {m : GoMove} (h : s.exec br m = some t) {k : Nat} (hk : k < s.cur) :
    s.cur ≤ t.cur ∧ (t.conns k = s.conns k ∨ (∃ f, (s.conns k).sendStep f = some (t.conns k)) ∨
      (∃ tk, (s.conns k).ticker ≠ .done ∧ t.conns k = { s.conns k with ticker := tk }) ∨
      (∃ p c, (s.conns k).ticker = .sending p ∧ (s.conns k).enqueue p = some c ∧ t.conns k = { c with ticker := .loop })) := by
  have hne : k ≠ s.cur := Nat.ne_of_lt hk
  have upd : ∀ j c, (s.upd j c).conns k = if k = j then c else s.conns k := fun j c => rfl
  unfold MonGo.exec at h
  split at h
  · simp at h
  · cases m with
    | main =>
      simp only [MonGo.mainStep] at h
      split at h
      · simp only [Option.some.injEq] at h; subst h
        refine ⟨Nat.le_succ _, .inl ?_⟩
        simp only [MonGo.upd]
        rw [if_neg (by omega)]
      · split at h <;> simp only [Option.some.injEq] at h <;> subst h
        · exact ⟨Nat.le_refl _, .inl rfl⟩
        · exact ⟨Nat.le_refl _, .inl (by simp only [MonGo.upd]; rw [if_neg hne])⟩
      · cases he : s.conn.enqueue (.resetQuery s.conn.version) with
        | none => rw [he] at h; cases h
        | some c =>
          rw [he] at h
          simp only [Option.map_some, Option.some.injEq] at h; subst h
          exact ⟨Nat.le_refl _, .inl (by simp only [MonGo.upd]; rw [if_neg hne])⟩
      · simp only [Option.some.injEq] at h; subst h; exact ⟨Nat.le_refl _, .inl rfl⟩
      · simp only [Option.some.injEq] at h; subst h
        exact ⟨Nat.le_refl _, .inl (by simp only [MonGo.upd]; rw [if_neg hne])⟩
      · simp only [Option.some.injEq] at h; subst h; exact ⟨Nat.le_refl _, .inl rfl⟩
      · split at h <;> simp only [Option.some.injEq] at h <;> subst h
        · exact ⟨Nat.le_refl _, .inl rfl⟩
        · exact ⟨Nat.le_refl _, .inl (by simp only [MonGo.upd]; rw [if_neg hne])⟩
      · simp only [Option.some.injEq] at h; subst h
        exact ⟨Nat.le_refl _, .inl (by simp only [MonGo.upd]; rw [if_neg hne])⟩
      · simp only [Option.some.injEq] at h; subst h
        exact ⟨Nat.le_refl _, .inl (by simp only [MonGo.upd]; rw [if_neg hne])⟩
      · split at h
        · simp only [Option.some.injEq] at h; subst h; exact ⟨Nat.le_refl _, .inl rfl⟩
        · simp at h
      · simp at h
    | dialOk =>
      dsimp only at h
      split at h
      · simp only [Option.some.injEq] at h; subst h
        exact ⟨Nat.le_refl _, .inl (by simp only [MonGo.upd]; rw [if_neg hne])⟩
      · simp at h
    | dialFails =>
      dsimp only at h
      split at h
      · simp only [Option.some.injEq] at h; subst h; exact ⟨Nat.le_refl _, .inl rfl⟩
      · simp at h
    | pdu p =>
      dsimp only at h
      split at h
      · simp only [Option.some.injEq] at h; subst h
        exact ⟨Nat.le_refl _, .inl (by simp only [MonGo.upd]; rw [if_neg hne])⟩
      · simp at h
    | lost =>
      dsimp only at h
      split at h
      · simp only [Option.some.injEq] at h; subst h; exact ⟨Nat.le_refl _, .inl rfl⟩
      · simp at h
    | handle now =>
      dsimp only at h
      split at h
      · simp only [Option.some.injEq] at h; subst h; exact ⟨Nat.le_refl _, .inl rfl⟩
      · simp at h
    | send j f =>
      dsimp only at h
      cases he : (s.conns j).sendStep f with
      | none => rw [he] at h; cases h
      | some c =>
        rw [he] at h
        simp only [Option.map_some, Option.some.injEq] at h; subst h
        refine ⟨Nat.le_refl _, ?_⟩
        by_cases hj : k = j
        · subst hj; exact .inr (.inl ⟨f, by rw [he, upd, if_pos rfl]⟩)
        · exact .inl (by rw [upd, if_neg hj])
    | tick j =>
      have tk : ∀ x, (s.conns j).ticker ≠ .done → s.cur ≤ (s.upd j { s.conns j with ticker := x }).cur ∧
          ((s.upd j { s.conns j with ticker := x }).conns k = s.conns k ∨ (∃ f, (s.conns k).sendStep f = some ((s.upd j { s.conns j with ticker := x }).conns k)) ∨
          (∃ tk, (s.conns k).ticker ≠ .done ∧ (s.upd j { s.conns j with ticker := x }).conns k = { s.conns k with ticker := tk }) ∨
          (∃ p c, (s.conns k).ticker = .sending p ∧ (s.conns k).enqueue p = some c ∧ (s.upd j { s.conns j with ticker := x }).conns k = { c with ticker := .loop })) := by
        intro x hx
        refine ⟨Nat.le_refl _, ?_⟩
        by_cases hj : k = j
        · subst hj; exact .inr (.inr (.inl ⟨x, hx, by rw [upd, if_pos rfl]⟩))
        · exact .inl (by rw [upd, if_neg hj])
      simp only [MonGo.tickStep] at h
      split at h
      · rename_i e; simp only [Option.some.injEq] at h; subst h; exact tk _ (by rw [e]; simp)
      · rename_i e
        split at h
        · simp only [Option.some.injEq] at h; subst h; exact tk _ (by rw [e]; simp)
        · simp at h
      · rename_i e; simp only [Option.some.injEq] at h; subst h; exact tk _ (by rw [e]; simp)
      · rename_i e; simp only [Option.some.injEq] at h; subst h; exact tk _ (by rw [e]; simp)
      · rename_i e; simp only [Option.some.injEq] at h; subst h; exact tk _ (by rw [e]; simp)
      · rename_i e; simp only [Option.some.injEq] at h; subst h; exact tk _ (by rw [e]; simp)
      · rename_i p e
        cases he : (s.conns j).enqueue p with
        | none => rw [he] at h; cases h
        | some c =>
          rw [he] at h
          simp only [Option.map_some, Option.some.injEq] at h; subst h
          refine ⟨Nat.le_refl _, ?_⟩
          by_cases hj : k = j
          · subst hj; exact .inr (.inr (.inr ⟨p, c, e, he, by rw [upd, if_pos rfl]⟩))
          · exact .inl (by rw [upd, if_neg hj])
      · simp at h
    | timer j =>
      dsimp only at h
      split at h
      · rename_i e
        simp only [Option.some.injEq] at h; subst h
        refine ⟨Nat.le_refl _, ?_⟩
        by_cases hj : k = j
        · subst hj; exact .inr (.inr (.inl ⟨_, by rw [e]; simp, by rw [upd, if_pos rfl]⟩))
        · exact .inl (by rw [upd, if_neg hj])
      · simp at h
    | stop j =>
      dsimp only at h
      split at h
      · rename_i e
        split at h
        · simp only [Option.some.injEq] at h; subst h
          refine ⟨Nat.le_refl _, ?_⟩
          by_cases hj : k = j
          · subst hj; exact .inr (.inr (.inl ⟨_, by rw [e]; simp, by rw [upd, if_pos rfl]⟩))
          · exact .inl (by rw [upd, if_neg hj])
        · simp at h
      · rename_i e
        split at h
        · simp only [Option.some.injEq] at h; subst h
          refine ⟨Nat.le_refl _, ?_⟩
          by_cases hj : k = j
          · subst hj; exact .inr (.inr (.inl ⟨_, by rw [e]; simp, by rw [upd, if_pos rfl]⟩))
          · exact .inl (by rw [upd, if_neg hj])
        · simp at h
      · simp at h

theorem sendStep_closed {f : Bool} {c c' : CConn} (h : c.sendStep f = some c') (hc : c.closed = true) : c'.wire = c.wire := by
  unfold CConn.sendStep at h
  rw [hc] at h
  split at h
  · simp only [Option.some.injEq] at h; subst h; rfl
  · split at h <;> simp only [Option.some.injEq] at h <;> subst h <;> rfl
  · simp at h
  · simp at h; subst h; rfl
  · simp at h

end MonGo

/-! ## C116 -/

/-- **C116.** Whatever the order of the goroutines' steps, and over any number of sessions, rtrmon does not close a channel twice: it never panics. -/
theorem C116_no_panic {br : Bool} {s : MonGo} (h : MonGo.Runs br .init s) : s.main ≠ .crashed := by
  have := ((MonGo.Ok.init br).runs h).phase
  intro e
  rw [e] at this
  exact this

/-- **C116.** When a session has ended without an error of the transport, waiting for `c.qrtr` does not block: the next session follows. -/
theorem C116_reconnects {br : Bool} {s : MonGo} (h : MonGo.Runs br .init s) (hm : s.main = .returned) :
    ∃ t u : MonGo, s.exec br .main = some t ∧ t.exec br .main = some u ∧ u.main = .dialing ∧ u.cur = s.cur + 1 ∧ u.client = s.client := by
  have := ((MonGo.Ok.init br).runs h).phase
  rw [hm] at this
  refine ⟨{ s with main := .sleeping }, { s.upd (s.cur + 1) (CConn.new br) with cur := s.cur + 1, main := .dialing }, ?_, ?_, rfl, rfl, rfl⟩
  · simp only [MonGo.exec, hm, MonGo.mainStep]
    rw [if_neg (by simp), if_pos this.2.2.1]
  · simp only [MonGo.exec, MonGo.mainStep]
    rw [if_neg (by simp)]
    rfl

/-- **C116.** The concurrency does not disturb the data: they are those of the sequential monitor (Model/Mon.lean, C63-C65, C91, C92) that saw the same connections and PDUs, and so is the
version of the session while it is read from; the program has ended exactly if that monitor has, once `Disconnect` is through. -/
theorem C116_data {br : Bool} {s : MonGo} (h : MonGo.Runs br .init s) :
    let m := (MonState.init.run br s.events).1
    s.client = m.client ∧ (s.main = .reading → m.session = ⟨s.conn.version, true⟩) ∧
      (s.main = .exited → m.ended = true) ∧ (m.ended = true → s.main = .exited ∨ ∃ d, s.main = .disc d true) := by
  have g := (MonGo.Ok.init br).runs h
  have gp := g.phase
  refine ⟨g.data, ?_, ?_, ?_⟩
  · intro e; rw [e] at gp; exact gp.1
  · intro e; rw [e] at gp; exact gp
  · intro e
    have e' : (MonGo.after br s.events).ended = true := e
    cases hm : s.main with
    | disc d r =>
      rw [hm] at gp
      have : r = true := by rw [← gp.2.1]; exact e'
      exact .inr ⟨d, by rw [this]⟩
    | exited => exact .inl rfl
    | crashed => rw [hm] at gp; exact absurd gp (by simp [MonGo.PhaseOk])
    | check => rw [hm] at gp; rw [gp.1] at e'; cases e'
    | sleeping => rw [hm] at gp; rw [gp.2.1] at e'; cases e'
    | dialing => rw [hm] at gp; rw [gp.2.1] at e'; cases e'
    | unlocking => rw [hm] at gp; rw [gp.2.1] at e'; cases e'
    | hello => rw [hm] at gp; rw [gp.2.1] at e'; cases e'
    | reading => rw [hm] at gp; rw [gp.2.1] at e'; cases e'
    | handling p => rw [hm] at gp; rw [gp.2.2.1] at e'; cases e'
    | returned => rw [hm] at gp; rw [gp.2.1] at e'; cases e'

/-- **C116.** In every session the queries reach the server in the order in which they were queued, and none is lost unless a write failed; at most 256 wait. -/
theorem C116_in_order {br : Bool} {s : MonGo} (h : MonGo.Runs br .init s) (k : Nat) :
    (s.conns k).wire <+: (s.conns k).queued ∧
    ((s.conns k).broken = false → (s.conns k).wire ++ MonGo.inWrite (s.conns k) ++ (s.conns k).queue = (s.conns k).queued) ∧ (s.conns k).queue.length ≤ 256 :=
  let g := ((MonGo.Ok.init br).runs h).conns k
  ⟨g.pre, g.all, g.cap⟩

/-- There is no session 0: nothing has happened while there was none. -/
theorem MonGo.none_yet {br : Bool} : ∀ t : MonGo, MonGo.Runs br .init t → t.cur = 0 → t.main = .sleeping := by
  intro t ht
  induction ht with
  | refl => intro _; rfl
  | @tail u v hu mv he ih =>
    intro hv
    have hle : u.cur = 0 := by
      by_contra hn
      have := (MonGo.exec_old he (k := 0) (Nat.pos_of_ne_zero hn)).1
      omega
    have hs := ih hle
    have gu := (MonGo.Ok.init br).runs hu
    unfold MonGo.exec at he
    rw [if_neg (by rw [hs]; simp)] at he
    cases mv with
    | main => simp only [MonGo.mainStep, hs, Option.some.injEq] at he; subst he; simp at hv
    | dialOk => simp [hs] at he
    | dialFails => simp [hs] at he
    | pdu p => simp [hs] at he
    | lost => simp [hs] at he
    | handle now => simp [hs] at he
    | send k f =>
      dsimp only at he
      cases hx : (u.conns k).sendStep f with
      | none => rw [hx] at he; cases he
      | some c => rw [hx] at he; simp only [Option.map_some, Option.some.injEq] at he; subst he; exact hs
    | tick k =>
      simp only [MonGo.tickStep] at he
      repeat' split at he
      all_goals first
        | (simp only [Option.some.injEq] at he; subst he; exact hs)
        | (simp at he; done)
        | (rename_i p _
           cases hx : (u.conns k).enqueue p with
           | none => rw [hx] at he; cases he
           | some c => rw [hx] at he; simp only [Option.map_some, Option.some.injEq] at he; subst he; exact hs)
    | timer k =>
      dsimp only at he
      split at he
      · simp only [Option.some.injEq] at he; subst he; exact hs
      · simp at he
    | stop k =>
      dsimp only at he
      repeat' split at he
      all_goals first
        | (simp only [Option.some.injEq] at he; subst he; exact hs)
        | (simp at he; done)

/-- **C116.** Every session sends exactly one Reset Query, in version 1 (none before it is set up), and otherwise only Serial Queries, in a version of the protocol, with a session and a serial
the monitor had at two moments, the session not later than the serial. -/
theorem C116_queries {br : Bool} {s : MonGo} (h : MonGo.Runs br .init s) (k : Nat) :
    (s.conns k).queued.count (.resetQuery 1) ≤ 1 ∧ (1 ≤ k → k < s.cur → (s.conns k).queued.count (.resetQuery 1) = 1) ∧
    (s.main = .reading → s.conn.queued.count (.resetQuery 1) = 1) ∧
    ∀ p ∈ (s.conns k).queued, p = .resetQuery 1 ∨ ∃ (v : U8) (a b : List MonEvent), (v = 0 ∨ v = 1) ∧ a <+: b ∧ b <+: s.events ∧
      p = .serialQuery v (MonState.init.run br a).1.client.sessionID (MonState.init.run br b).1.client.serial := by
  have g := (MonGo.Ok.init br).runs h
  have hc : ∀ c : CConn, c.queued.count (.resetQuery 1) = MonGo.resets c := by
    intro c
    simp only [List.count, MonGo.resets]
    congr 1
  refine ⟨by rw [hc]; exact g.most k, fun h1 h2 => by rw [hc]; exact g.one k h1 h2, fun hm => ?_, (g.conns k).queued⟩
  rw [hc]
  refine g.late (by rw [hm]; rfl) (by rw [hm]; simp) ?_
  rcases Nat.eq_zero_or_pos s.cur with e | e
  · -- there is no session 0
    rw [MonGo.none_yet s h e] at hm; cases hm
  · exact e

/-- **C116.** Once a new session has begun, nothing more reaches the server on an earlier one, whatever is left of its goroutines. -/
theorem C116_old_silent {br : Bool} {s t : MonGo} (h : MonGo.Runs br .init s) (h' : MonGo.Runs br s t) {k : Nat} (hk : k < s.cur) :
    (t.conns k).wire = (s.conns k).wire := by
  have : k < t.cur ∧ (t.conns k).wire = (s.conns k).wire ∧ MonGo.Ok br t := by
    induction h' with
    | refl => exact ⟨hk, rfl, (MonGo.Ok.init br).runs h⟩
    | tail _ m e ih =>
      obtain ⟨i1, i2, i3⟩ := ih
      obtain ⟨j1, j2⟩ := MonGo.exec_old e i1
      refine ⟨by omega, ?_, i3.exec e⟩
      rw [← i2]
      rcases j2 with j | ⟨f, j⟩ | ⟨tk, _, j⟩ | ⟨p, c, _, j, j'⟩
      · rw [j]
      · exact MonGo.sendStep_closed j (i3.old k i1)
      · rw [j]
      · rw [j']
        rcases MonGo.enqueue_cases j with ⟨_, rfl⟩ | ⟨_, _, rfl⟩ <;> rfl
  exact this.2.1

theorem MonGo.exists_sched {br : Bool} (ms : List GoMove) {P : MonGo → Bool} (h : (MonGo.init.sched br ms).any P = true) :
    ∃ s, MonGo.Runs br .init s ∧ P s = true := by
  cases e : MonGo.init.sched br ms with
  | none => rw [e] at h; cases h
  | some s => rw [e] at h; exact ⟨s, MonGo.runs_sched ms e, h⟩

/-- A session set up as far as the first read. -/
def goUp : List GoMove := [.main, .dialOk, .main, .main, .main]

/-- A PDU read and handled, and the loop condition after it. -/
def goRead (p : Pdu) : List GoMove := [.pdu p, .handle 0, .main]

/-- The end of a session after an Error Report: `Disconnect`, the loop condition, `<-c.qrtr`. -/
def goError : List GoMove := [.pdu (.errorReport 1 2 [] []), .handle 0, .main, .main, .main, .main, .main, .main, .main]

/-- Steps of `sendLoop` that write a queued PDU. -/
def goWrite (k : Nat) : List GoMove := [.send k false, .send k false, .send k false]

/-- From the start of `continuousRTR` to its `select`. -/
def goTicker (k : Nat) : List GoMove := [.tick k, .tick k, .tick k]

/-- The timer fires and a Serial Query is queued. -/
def goTimer (k : Nat) : List GoMove := [.timer k, .tick k, .tick k, .tick k, .tick k]

/-- The `continuousRTR` of the current session waits for this session, and has ended only if the session has. -/
def MonGo.TickerHere (s : MonGo) : Prop :=
  match s.conn.ticker with
  | .first g | .waiting g => g = s.cur
  | .done => s.cur = 0 ∨ s.conn.qrtrClosed = true
  | _ => True

theorem MonGo.TickerHere.keep {s t : MonGo} (g : s.TickerHere) (hc : t.cur = s.cur) (ht : t.conn.ticker = s.conn.ticker)
    (hq : s.conn.qrtrClosed = true → t.conn.qrtrClosed = true) : t.TickerHere := by
  unfold MonGo.TickerHere at g ⊢
  rw [ht, hc]
  cases h : s.conn.ticker <;> rw [h] at g <;> try exact g
  exact g.imp_right hq

theorem MonGo.enqueue_keeps {p : Pdu} {c c' : CConn} (h : c.enqueue p = some c') : c'.ticker = c.ticker ∧ c'.qrtrClosed = c.qrtrClosed := by
  rcases MonGo.enqueue_cases h with ⟨_, rfl⟩ | ⟨_, _, rfl⟩ <;> exact ⟨rfl, rfl⟩

theorem MonGo.sendStep_keeps {f : Bool} {c c' : CConn} (h : c.sendStep f = some c') : c'.ticker = c.ticker ∧ c'.qrtrClosed = c.qrtrClosed := by
  unfold CConn.sendStep at h
  repeat' split at h
  all_goals first
    | (simp only [Option.some.injEq] at h; subst h; exact ⟨rfl, rfl⟩)
    | (simp at h; done)

theorem MonGo.TickerHere.exec {s t : MonGo} {m : GoMove} (g : s.TickerHere) (he : s.exec false m = some t) : t.TickerHere := by
  have cur : ∀ c, (s.upd s.cur c).conn = c := fun c => by rw [MonGo.conn_upd, if_pos rfl]
  -- the ticker of session `k` moves to `tk`
  have tick : ∀ k c, (k = s.cur → match c.ticker with
      | .first g | .waiting g => g = s.cur
      | .done => s.cur = 0 ∨ c.qrtrClosed = true
      | _ => True) → (s.upd k c).TickerHere := by
    intro k c h
    unfold MonGo.TickerHere
    rw [MonGo.conn_upd]
    by_cases hk : k = s.cur
    · rw [if_pos hk]; exact h hk
    · rw [if_neg hk]; exact g
  unfold MonGo.exec at he
  split at he
  · simp at he
  · cases m with
    | main =>
      simp only [MonGo.mainStep] at he
      split at he
      · simp only [Option.some.injEq] at he; subst he
        simp [MonGo.TickerHere, MonGo.conn, MonGo.upd, CConn.new]
      · split at he <;> simp only [Option.some.injEq] at he <;> subst he
        · exact g
        · exact g.keep rfl (by simp [MonGo.conn, MonGo.upd]) (by simp [MonGo.conn, MonGo.upd])
      · cases hx : s.conn.enqueue (.resetQuery s.conn.version) with
        | none => rw [hx] at he; cases he
        | some c =>
          rw [hx] at he
          simp only [Option.map_some, Option.some.injEq] at he; subst he
          have hc := MonGo.enqueue_keeps hx
          exact g.keep rfl ((congrArg CConn.ticker (cur c)).trans hc.1) (fun h => (congrArg CConn.qrtrClosed (cur c)).trans (hc.2.trans h))
      · simp only [Option.some.injEq] at he; subst he; exact g
      · simp only [Option.some.injEq] at he; subst he
        exact g.keep rfl (by simp [MonGo.conn, MonGo.upd]) (by simp [MonGo.conn, MonGo.upd])
      · simp only [Option.some.injEq] at he; subst he; exact g
      · split at he <;> simp only [Option.some.injEq] at he <;> subst he
        · exact g
        · exact g.keep rfl (by simp [MonGo.conn, MonGo.upd]) (by simp [MonGo.conn, MonGo.upd])
      · simp only [Option.some.injEq] at he; subst he
        exact g.keep rfl (by simp [MonGo.conn, MonGo.upd]) (by simp [MonGo.conn, MonGo.upd])
      · simp only [Option.some.injEq] at he; subst he
        exact g.keep rfl (by simp [MonGo.conn, MonGo.upd]) (by simp [MonGo.conn, MonGo.upd])
      · split at he
        · simp only [Option.some.injEq] at he; subst he; exact g
        · simp at he
      · simp at he
    | dialOk =>
      dsimp only at he
      split at he
      · simp only [Option.some.injEq] at he; subst he
        exact g.keep rfl (by simp [MonGo.conn, MonGo.upd]) (by simp [MonGo.conn, MonGo.upd])
      · simp at he
    | dialFails =>
      dsimp only at he
      split at he
      · simp only [Option.some.injEq] at he; subst he; exact g
      · simp at he
    | pdu p =>
      dsimp only at he
      split at he
      · simp only [Option.some.injEq] at he; subst he
        exact g.keep rfl (by simp [MonGo.conn, MonGo.upd]) (by simp [MonGo.conn, MonGo.upd])
      · simp at he
    | lost =>
      dsimp only at he
      split at he
      · simp only [Option.some.injEq] at he; subst he; exact g
      · simp at he
    | handle now =>
      dsimp only at he
      split at he
      · simp only [Option.some.injEq] at he; subst he; exact g
      · simp at he
    | send k f =>
      dsimp only at he
      cases hx : (s.conns k).sendStep f with
      | none => rw [hx] at he; cases he
      | some c =>
        rw [hx] at he
        simp only [Option.map_some, Option.some.injEq] at he; subst he
        have hc := MonGo.sendStep_keeps hx
        refine tick k c fun hk => ?_
        subst hk
        have : s.conn.ticker = c.ticker ∧ s.conn.qrtrClosed = c.qrtrClosed := ⟨hc.1.symm, hc.2.symm⟩
        unfold MonGo.TickerHere at g
        rw [this.1, this.2] at g
        exact g
    | tick k =>
      simp only [MonGo.tickStep] at he
      split at he
      · simp only [Option.some.injEq] at he; subst he; exact tick _ _ fun _ => rfl
      · split at he
        · simp only [Option.some.injEq] at he; subst he; exact tick _ _ fun _ => trivial
        · simp at he
      · simp only [Option.some.injEq] at he; subst he; exact tick _ _ fun _ => rfl
      · simp only [Option.some.injEq] at he; subst he; exact tick _ _ fun _ => trivial
      · simp only [Option.some.injEq] at he; subst he; exact tick _ _ fun _ => trivial
      · simp only [Option.some.injEq] at he; subst he; exact tick _ _ fun _ => trivial
      · rename_i p _
        cases hx : (s.conns k).enqueue p with
        | none => rw [hx] at he; cases he
        | some c =>
          rw [hx] at he
          simp only [Option.map_some, Option.some.injEq] at he; subst he
          exact tick _ _ fun _ => trivial
      · simp at he
    | timer k =>
      dsimp only at he
      split at he
      · simp only [Option.some.injEq] at he; subst he; exact tick _ _ fun _ => trivial
      · simp at he
    | stop k =>
      have stop : ∀ x, ((s.conns k).ticker = .first x ∨ (s.conns k).ticker = .waiting x) → (s.conns x).qrtrClosed = true →
          (s.upd k { s.conns k with ticker := .done }).TickerHere := by
        intro x hx hq
        refine tick _ _ fun hk => .inr ?_
        subst hk
        have : x = s.cur := by
          unfold MonGo.TickerHere at g
          rcases hx with hx | hx
          · rw [show s.conn.ticker = _ from hx] at g; exact g
          · rw [show s.conn.ticker = _ from hx] at g; exact g
        rw [this] at hq; exact hq
      dsimp only at he
      split at he
      · rename_i x e
        split at he
        · rename_i hq; simp only [Option.some.injEq] at he; subst he; exact stop x (.inl e) hq
        · simp at he
      · rename_i x e
        split at he
        · rename_i hq; simp only [Option.some.injEq] at he; subst he; exact stop x (.inr e) hq
        · simp at he
      · simp at he

/-- **C116.** While a session is on, its `continuousRTR` is there: it has not ended, and the `select` it waits in is of this session; when its timer fires, its four next steps, if nothing comes in between and
there is room, queue a Serial Query with the version of the session and the session id and serial that the monitor holds. -/
theorem C116_polls {s : MonGo} (h : MonGo.Runs false .init s) (hm : s.main = .reading) :
    s.conn.ticker ≠ .done ∧ (∀ g, s.conn.ticker = .first g ∨ s.conn.ticker = .waiting g → g = s.cur) ∧
    (s.conn.ticker = .waiting s.cur → s.conn.queue.length < 256 → ∃ t, s.sched false (goTimer s.cur) = some t ∧
      t.conn.queued = s.conn.queued ++ [.serialQuery s.conn.version s.client.sessionID s.client.serial]) := by
  have g : s.TickerHere := by
    have : ∀ t, MonGo.Runs false .init t → t.TickerHere := by
      intro t ht
      induction ht with
      | refl => exact .inl rfl
      | tail _ m e ih => exact ih.exec e
    exact this s h
  have gp := ((MonGo.Ok.init false).runs h).phase
  rw [hm] at gp
  have hcur : s.cur ≠ 0 := by
    intro e
    rw [MonGo.none_yet s h e] at hm; cases hm
  unfold MonGo.TickerHere at g
  refine ⟨?_, ?_, ?_⟩
  · intro e
    rw [e] at g
    rcases g with g | g
    · exact hcur g
    · rw [gp.2.2.1] at g; cases g
  · rintro x (e | e) <;> rw [e] at g <;> exact g
  · intro e hq
    have e' : (s.conns s.cur).ticker = .waiting s.cur := e
    have hq' : (s.conns s.cur).queue.length < 256 := hq
    by_cases hp : (s.conns s.cur).sender = .parked
    · exact ⟨_, by simp [goTimer, MonGo.sched, MonGo.exec, MonGo.tickStep, MonGo.upd, hm, e', CConn.enqueue, hp]; rfl, by simp [MonGo.conn]⟩
    · exact ⟨_, by simp [goTimer, MonGo.sched, MonGo.exec, MonGo.tickStep, MonGo.upd, hm, e', CConn.enqueue, hp, hq']; rfl, by simp [MonGo.conn]⟩

/-- One-off mode (`BreakRTR`): a session queues its Reset Query and nothing else. -/
theorem C116_one_off {s : MonGo} (h : MonGo.Runs true .init s) (k : Nat) : (s.conns k).queued = [] ∨ (s.conns k).queued = [.resetQuery 1] := by
  have key : ∀ k, (s.conns k).ticker = .done ∧ ∀ p ∈ (s.conns k).queued, p = .resetQuery 1 := by
    induction h with
    | refl => intro k; exact ⟨rfl, by simp [MonGo.init, CConn.none]⟩
    | @tail u v hu m he ih =>
      have g := (MonGo.Ok.init true).runs hu
      have upd : ∀ j c, (c.ticker = .done ∧ ∀ p ∈ c.queued, p = .resetQuery 1) →
          ∀ k, ((u.upd j c).conns k).ticker = .done ∧ ∀ p ∈ ((u.upd j c).conns k).queued, p = .resetQuery 1 := by
        intro j c hc k
        simp only [MonGo.upd]
        split
        · exact hc
        · exact ih k
      unfold MonGo.exec at he
      split at he
      · simp at he
      · cases m with
        | main =>
          simp only [MonGo.mainStep] at he
          split at he
          · simp only [Option.some.injEq] at he; subst he; exact upd _ _ ⟨rfl, by simp [CConn.new]⟩
          · split at he <;> simp only [Option.some.injEq] at he <;> subst he
            · exact ih
            · exact upd _ _ (ih u.cur)
          · rename_i hm
            have gp := g.phase
            rw [hm] at gp
            rw [gp.2.2.2.2] at he
            cases hx : u.conn.enqueue (.resetQuery 1) with
            | none => rw [hx] at he; cases he
            | some c =>
              rw [hx] at he
              simp only [Option.map_some, Option.some.injEq] at he; subst he
              have hcur := ih u.cur
              refine upd _ _ ?_
              have hq : ∀ p ∈ u.conn.queued ++ [Pdu.resetQuery 1], p = .resetQuery 1 := by
                intro p hp
                rcases List.mem_append.1 hp with hp | hp
                · exact hcur.2 p hp
                · exact List.mem_singleton.1 hp
              rcases MonGo.enqueue_cases hx with ⟨_, rfl⟩ | ⟨_, _, rfl⟩ <;> exact ⟨hcur.1, hq⟩
          · simp only [Option.some.injEq] at he; subst he; exact ih
          · simp only [Option.some.injEq] at he; subst he; exact upd _ _ (ih u.cur)
          · simp only [Option.some.injEq] at he; subst he; exact ih
          · split at he <;> simp only [Option.some.injEq] at he <;> subst he
            · exact ih
            · exact upd _ _ (ih u.cur)
          · simp only [Option.some.injEq] at he; subst he; exact upd _ _ (ih u.cur)
          · simp only [Option.some.injEq] at he; subst he; exact upd _ _ (ih u.cur)
          · split at he
            · simp only [Option.some.injEq] at he; subst he; exact ih
            · simp at he
          · simp at he
        | dialOk =>
          dsimp only at he
          split at he
          · simp only [Option.some.injEq] at he; subst he; exact upd _ _ (ih u.cur)
          · simp at he
        | dialFails =>
          dsimp only at he
          split at he
          · simp only [Option.some.injEq] at he; subst he; exact ih
          · simp at he
        | pdu p =>
          dsimp only at he
          split at he
          · simp only [Option.some.injEq] at he; subst he; exact upd _ _ (ih u.cur)
          · simp at he
        | lost =>
          dsimp only at he
          split at he
          · simp only [Option.some.injEq] at he; subst he; exact ih
          · simp at he
        | handle now =>
          dsimp only at he
          split at he
          · simp only [Option.some.injEq] at he; subst he; exact ih
          · simp at he
        | send j f =>
          dsimp only at he
          cases hx : (u.conns j).sendStep f with
          | none => rw [hx] at he; cases he
          | some c =>
            rw [hx] at he
            simp only [Option.map_some, Option.some.injEq] at he; subst he
            refine upd _ _ ?_
            have : c.ticker = (u.conns j).ticker ∧ c.queued = (u.conns j).queued := by
              unfold CConn.sendStep at hx
              repeat' split at hx
              all_goals first
                | (simp only [Option.some.injEq] at hx; subst hx; exact ⟨rfl, rfl⟩)
                | (simp at hx; done)
            rw [this.1, this.2]; exact ih j
        | tick j => simp [MonGo.tickStep, (ih j).1] at he
        | timer j => simp [(ih j).1] at he
        | stop j => simp [(ih j).1] at he
  have h1 := (C116_queries h k).1
  have h2 := (key k).2
  match hq : (s.conns k).queued with
  | [] => exact .inl rfl
  | [p] => rw [hq] at h2; exact .inr (by rw [h2 p (by simp)])
  | p :: q :: l =>
    rw [hq] at h1 h2
    rw [h2 p (by simp), h2 q (by simp)] at h1
    simp only [List.count_cons_self] at h1
    omega

/-- **C116** fails in part: the Reset Query need not come first. `close(c.unlock)` comes before `SendResetQuery` (cmd/rtrmon/rtrmon.go:570-571), so with a short refresh interval the
first query of the very first session is a Serial Query, with session 0 and serial 0. -/
theorem C116_first_false : ∃ s, MonGo.Runs false .init s ∧ (s.conns 1).wire = [.serialQuery 1 0 0, .resetQuery 1] := by
  obtain ⟨s, h, e⟩ := MonGo.exists_sched (br := false) (P := fun s => (s.conns 1).wire == [.serialQuery 1 0 0, .resetQuery 1])
    ([.main, .dialOk, .main] ++ goTicker 1 ++ goTimer 1 ++ [.main] ++ goWrite 1 ++ goWrite 1) (by decide +kernel)
  exact ⟨s, h, by simpa using e⟩

/-- An End of Data of this session. -/
def endsSession (sid : U16) : MonEvent → Bool
  | .pdu _ (.endOfData _ t ..) => t == sid
  | _ => false

/-- **C116** fails in part: a Serial Query may name a session together with a serial that this session never had. Between the Cache Response of a new session and its End of Data
the timer sends the new session id with the serial of the session before (cmd/rtrmon/rtrmon.go:533, 558, 610). -/
theorem C116_pair_false : ∃ s, MonGo.Runs false .init s ∧ .serialQuery 1 9 100 ∈ (s.conns 2).wire ∧ ∀ e ∈ s.events, endsSession 9 e = false := by
  obtain ⟨s, h, e⟩ := MonGo.exists_sched (br := false)
    (P := fun s => decide (.serialQuery 1 9 100 ∈ (s.conns 2).wire) && s.events.all fun e => endsSession 9 e == false)
    (goUp ++ goRead (.cacheResponse 1 7) ++ goRead (.endOfData 1 7 100 1 1 1) ++ goError ++ [.tick 1, .stop 1] ++
      goUp ++ goTicker 2 ++ goRead (.cacheResponse 1 9) ++ goTimer 2 ++ goWrite 2 ++ goWrite 2) (by decide +kernel)
  simp only [Bool.and_eq_true, decide_eq_true_eq, List.all_eq_true, beq_iff_eq] at e
  exact ⟨s, h, e⟩

/-- **C116** fails in part: `sendLoop` may outlive its session for ever. If `Disconnect` comes when `sendLoop` has checked `connected` but does not wait yet, the
non-blocking send to `quit` finds nobody (lib/client.go:78-79, 96-100), and nothing wakes `sendLoop` later. -/
theorem C116_sender_ends_false : ∃ s, MonGo.Runs false .init s ∧ s.main = .reading ∧ s.cur = 2 ∧ (s.conns 1).connected = false ∧
    ∀ t, MonGo.Runs false s t → (t.conns 1).sender = .parked := by
  obtain ⟨s, h, e⟩ := MonGo.exists_sched (br := false)
    (P := fun s => decide (s.main = .reading ∧ s.cur = 2 ∧ (s.conns 1).connected = false ∧ (s.conns 1).sender = .parked ∧ (s.conns 1).ticker = .done))
    (goUp ++ goWrite 1 ++ [.send 1 false] ++ goError ++ [.send 1 false, .tick 1, .stop 1] ++ goUp) (by decide +kernel)
  simp only [decide_eq_true_eq] at e
  obtain ⟨e1, e2, e3, e4, e5⟩ := e
  refine ⟨s, h, e1, e2, e3, fun t ht => ?_⟩
  have : 1 < t.cur ∧ (t.conns 1).sender = .parked ∧ (t.conns 1).ticker = .done := by
    induction ht with
    | refl => exact ⟨by omega, e4, e5⟩
    | tail _ m he ih =>
      obtain ⟨i1, i2, i3⟩ := ih
      obtain ⟨j1, j2⟩ := MonGo.exec_old he i1
      rcases j2 with j | ⟨f, j⟩ | ⟨tk, j, _⟩ | ⟨p, c, j, _, _⟩
      · exact ⟨by omega, by rw [j]; exact i2, by rw [j]; exact i3⟩
      · simp [CConn.sendStep, i2] at j
      · exact absurd i3 j
      · rw [i3] at j; cases j
  exact this.2.1

/-- **C116**, what holds: after `connected` was set to false `sendLoop` ends within three steps of its own, whatever its writes do, unless it waits, or is about to wait, in `select` with
nothing queued. In particular it ends if `Disconnect` finds it waiting. -/
theorem C116_sender_ends_partial :
    (∀ {br : Bool} {s t : MonGo} {r : Bool}, s.main = .disc .quit r → s.exec br .main = some t → (s.conn.sender = .parked ∨ s.conn.sender = .done) → t.conn.sender = .done) ∧
    ∀ c : CConn, c.connected = false → (c.sender = .check ∨ (∃ p, c.sender = .writing p) ∨ (c.sender = .select ∧ c.queue ≠ [])) →
      ∀ f g : Bool, ∃ n, n ≤ 3 ∧ ∃ d : CConn, d.sender = .done ∧
        ([f, g, false].take n).foldlM (fun c f => c.sendStep f) c = some d := by
  refine ⟨?_, ?_⟩
  · intro br s t r hm he hs
    simp only [MonGo.exec, hm, MonGo.mainStep] at he
    rw [if_neg (by simp)] at he
    simp only [Option.some.injEq] at he; subst he
    rcases hs with hs | hs <;> simp [MonGo.conn, MonGo.upd] at hs ⊢ <;> simp [hs]
  · intro c hc hs f g
    rcases hs with hs | ⟨p, hs⟩ | ⟨hs, hq⟩
    · exact ⟨1, by omega, { c with sender := .done }, rfl, by simp [CConn.sendStep, hs, hc]⟩
    · refine ⟨2, by omega, ?_⟩
      cases hf : (f || c.broken || c.closed)
      · exact ⟨{ c with sender := .done, wire := c.wire ++ [p] }, rfl, by simp only [Bool.or_eq_false_iff] at hf; simp [CConn.sendStep, hs, hc, hf.1.1, hf.1.2, hf.2]⟩
      · exact ⟨{ c with sender := .done, broken := true }, rfl, by simp only [Bool.or_eq_true] at hf; simp [CConn.sendStep, hs, hc, hf]⟩
    · refine ⟨3, by omega, ?_⟩
      cases hq' : c.queue with
      | nil => exact absurd hq' hq
      | cons p q =>
        cases hf : (g || c.broken || c.closed)
        · exact ⟨{ c with sender := .done, queue := q, wire := c.wire ++ [p] }, rfl, by simp only [Bool.or_eq_false_iff] at hf; simp [CConn.sendStep, hs, hc, hf.1.1, hf.1.2, hf.2, hq']⟩
        · exact ⟨{ c with sender := .done, queue := q, broken := true }, rfl, by simp only [Bool.or_eq_true] at hf; simp [CConn.sendStep, hs, hc, hf, hq']⟩

/-- **C116** fails in part: `continuousRTR` may outlive its session. It reads the field `c.qrtr` anew in every round (cmd/rtrmon/rtrmon.go:606-607); if the session ends and the next one begins between two
rounds, it waits for the end of the new session and goes on queueing queries for the old one. -/
theorem C116_ticker_ends_false : ∃ s, MonGo.Runs false .init s ∧ s.main = .reading ∧ s.cur = 2 ∧ (s.conns 1).qrtrClosed = true ∧
    (s.conns 1).ticker = .loop ∧ (s.conns 1).queue = [.serialQuery 1 0 0, .serialQuery 1 0 0] := by
  obtain ⟨s, h, e⟩ := MonGo.exists_sched (br := false)
    (P := fun s => decide (s.main = .reading ∧ s.cur = 2 ∧ (s.conns 1).qrtrClosed = true ∧ (s.conns 1).ticker = .loop ∧
      (s.conns 1).queue = [.serialQuery 1 0 0, .serialQuery 1 0 0]))
    (goUp ++ goWrite 1 ++ [.tick 1, .tick 1] ++ goError ++ goUp ++ [.send 1 false, .tick 1] ++ goTimer 1 ++ [.tick 1] ++ goTimer 1) (by decide +kernel)
  exact ⟨s, h, by simpa using e⟩

/-- **C116**, what holds: when a session has ended, its `continuousRTR`, if it waits in a `select` it entered during the session, can end at once. -/
theorem C116_ticker_ends_partial {br : Bool} {s : MonGo} (hx : s.main ≠ .exited ∧ s.main ≠ .crashed) {k : Nat}
    (ht : (s.conns k).ticker = .first k ∨ (s.conns k).ticker = .waiting k) (hq : (s.conns k).qrtrClosed = true) :
    ∃ t, s.exec br (.stop k) = some t ∧ (t.conns k).ticker = .done := by
  refine ⟨s.upd k { s.conns k with ticker := .done }, ?_, by simp [MonGo.upd]⟩
  simp only [MonGo.exec]
  rw [if_neg (by simp [hx])]
  rcases ht with ht | ht <;> rw [ht] <;> simp [hq]

-- Two sessions, as far as the second End of Data: what the server got in each, the serial the monitor holds, and where it is.
example : (MonGo.init.sched false (goUp ++ goWrite 1 ++ goTicker 1 ++ goRead (.cacheResponse 1 7) ++ goRead (.endOfData 1 7 100 1 1 1) ++ goTimer 1 ++ goWrite 1 ++
      goError ++ [.send 1 false, .tick 1, .stop 1] ++ goUp ++ goTicker 2 ++ goWrite 2 ++ goRead (.cacheResponse 0 8) ++ goRead (.endOfData 0 8 3 1 1 1) ++ goTimer 2 ++ goWrite 2)).map
    (fun s => ((s.conns 1).wire, (s.conns 2).wire, s.client.serial, s.main, s.cur)) =
    some ([.resetQuery 1, .serialQuery 1 7 100], [.resetQuery 1, .serialQuery 0 8 3], 3, .reading, 2) := by decide +kernel

-- One-off mode: the first End of Data ends the session, and the next one begins.
example : (MonGo.init.sched true (goUp ++ goWrite 1 ++ goRead (.cacheResponse 1 7) ++ [.pdu (.endOfData 1 7 100 1 1 1), .handle 0] ++ List.replicate 8 .main)).map
    (fun s => ((s.conns 1).wire, (s.conns 1).closed, s.main, s.cur)) = some ([.resetQuery 1], true, .dialing, 2) := by decide +kernel

-- A lost connection ends the program.
example : (MonGo.init.sched false (goUp ++ [.lost] ++ List.replicate 5 .main)).map (fun s => (s.main, s.conn.qrtrClosed)) = some (.exited, true) := by decide +kernel

end StayRTR
