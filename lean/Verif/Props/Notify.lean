import Verif.Model.Notify

/-!
# C124, C125: notifications against the goroutine of a connection
-/

namespace StayRTR

namespace Spec

/-- A Serial Notify whose session id is not that of the version it is sent in. -/
def mislabelled (srv : Server) : Effect → Bool
  | .send (.serialNotify v sid _) => decide (srv.sessId[v.toNat]? ≠ some sid)
  | _ => false

/-- A Serial Notify. -/
def isNotify : Effect → Bool
  | .send (.serialNotify ..) => true
  | _ => false

/-- One PDU after the other is read and answered, without notifications; with the stores that its handlers see. -/
def serve (srv : Server) (c : Client) : List (Store × Store × Pdu) → GoRes (Client × List Effect)
  | [] => .ok (c, [])
  | (st1, st2, p) :: rest => if c.connected = false then .ok (c, []) else do
    let (c', e) ← srv.processPdu st1 st2 c p
    let (c'', e') ← serve srv c' rest
    return (c'', e ++ e')

/-- A Serial Notify stands between a Cache Response and the end of the answer. -/
def Interrupted (q : List Effect) : Prop := ∃ A v sid M v' sid' n B, q = A ++ .send (.cacheResponse v sid) :: M ++ .send (.serialNotify v' sid' n) :: B ∧
  ∀ e ∈ M, ∀ v s n a b c, e ≠ .send (.endOfData v s n a b c)

end Spec

open Spec

/-! ## What the goroutine of a connection puts on the channel -/

theorem sendData_notify (c : Client) (x : SD) : ∀ e ∈ c.sendData x, isNotify e = false := by
  intro e he
  unfold Client.sendData at he
  cases x with
  | vrp t =>
    simp only at he
    repeat' split at he
    all_goals simp only [List.mem_singleton, List.not_mem_nil] at he
    all_goals subst he; rfl
  | brk t =>
    simp only at he
    split at he
    all_goals simp only [List.mem_singleton, List.not_mem_nil] at he
    subst he; rfl

theorem sendSDs_notify (c : Client) (sid : U16) (n : U32) (l : List SD) : ∀ e ∈ c.sendSDs sid n l, isNotify e = false := by
  intro e he
  unfold Client.sendSDs at he
  rcases List.mem_append.1 he with he | he
  · rcases List.mem_append.1 he with he | he
    · rw [List.mem_singleton] at he; subst he; rfl
    · obtain ⟨x, -, hx⟩ := List.mem_flatMap.1 he
      exact sendData_notify c x e hx
  · rw [List.mem_singleton] at he; subst he; rfl

theorem passSimpleHandler_notify {srv : Server} {st1 st2 : Store} {c : Client} {p : Pdu} {es : List Effect} (h : srv.passSimpleHandler st1 st2 c p = .ok es) : ∀ e ∈ es, isNotify e = false := by
  cases p
  case serialQuery v a b =>
    change srv.requestNewVersion st1 st2 c a b = .ok es at h
    unfold Server.requestNewVersion at h
    cases hs : srv.getSessionId c.version with
    | err => rw [hs] at h; cases h
    | panic => rw [hs] at h; cases h
    | ok s =>
      rw [hs] at h
      change (if a ≠ s then _ else _) = _ at h
      split at h
      · cases h; intro e he; simp only [List.mem_cons, List.not_mem_nil, or_false] at he; rcases he with rfl | rfl <;> rfl
      · change (if _ = false then _ else _) = _ at h
        split at h
        · cases h; intro e he; simp only [List.mem_singleton] at he; subst he; rfl
        · cases hd : st2.getSDsSerialDiff b with
          | err => rw [hd] at h; cases h
          | panic => rw [hd] at h; cases h
          | ok o =>
            rw [hd] at h
            cases o with
            | none => cases h; intro e he; simp only [List.mem_singleton] at he; subst he; rfl
            | some d => cases h; exact sendSDs_notify _ _ _ _
  case resetQuery v =>
    change srv.requestCache st1 st2 c = .ok es at h
    unfold Server.requestCache at h
    cases hs : srv.getSessionId c.version with
    | err => rw [hs] at h; cases h
    | panic => rw [hs] at h; cases h
    | ok s =>
      rw [hs] at h
      change (if _ = false then _ else _) = _ at h
      split at h
      · cases h; intro e he; simp only [List.mem_singleton] at he; subst he; rfl
      · cases h; exact sendSDs_notify _ _ _ _
  all_goals cases h; intro e he; cases he

theorem checkVersion_notify {c c' : Client} {v : U8} {e : List Effect} (h : c.checkVersion v = (c', e)) : ∀ x ∈ e, isNotify x = false := by
  unfold Client.checkVersion at h
  split at h <;> cases h
  · intro x hx; cases hx
  · intro x hx; simp only [List.mem_cons, List.not_mem_nil, or_false] at hx; rcases hx with rfl | rfl <;> rfl

theorem handlePDU_notify {srv : Server} {c c' : Client} {e : List Effect} (h : srv.handlePDU c = (c', e)) : ∀ x ∈ e, isNotify x = false := by
  unfold Server.handlePDU at h
  split at h
  rename_i c1 e1 h1
  split at h1 <;> cases h1 <;> cases h
  · intro x hx; simp only [List.mem_cons, List.not_mem_nil, or_false] at hx; rcases hx with rfl | rfl <;> rfl
  · intro x hx; cases hx

theorem mislabelled_notify {srv : Server} {e : Effect} (h : isNotify e = false) : mislabelled srv e = false := by
  cases e with
  | disconnect => rfl
  | send p => cases p <;> first | rfl | cases h

theorem mislabelled_count {srv : Server} {q e : List Effect} (h : ∀ x ∈ e, isNotify x = false) : (q ++ e).countP (mislabelled srv) = q.countP (mislabelled srv) := by
  rw [List.countP_append, List.countP_eq_zero (l := e) |>.2 (fun x hx => by rw [mislabelled_notify (h x hx)]; simp), Nat.add_zero]

/-! ## Versions -/

theorem checkVersion_version {c c' : Client} {v : U8} {e : List Effect} (h : c.checkVersion v = (c', e)) : (c.versionset = true → c'.versionset = true ∧ c'.version = c.version) ∧
    (c.versionset = false → c'.versionset = true ∨ (c'.versionset = false ∧ c'.version = c.version)) := by
  unfold Client.checkVersion at h
  split at h
  · rename_i hc
    cases h
    refine ⟨fun hs => ⟨rfl, ?_⟩, fun _ => .inl rfl⟩
    rcases hc.1 with h1 | h1
    · rw [hs] at h1; cases h1
    · exact h1
  · cases h
    exact ⟨fun hs => ⟨hs, rfl⟩, fun hs => .inr ⟨hs, rfl⟩⟩

theorem noteQuery_version (c : Client) (p : Pdu) : (c.noteQuery p).version = c.version ∧ (c.noteQuery p).versionset = c.versionset := by
  cases p <;> exact ⟨rfl, rfl⟩

theorem handlePDU_version {srv : Server} {c c' : Client} {e : List Effect} (h : srv.handlePDU c = (c', e)) : (c'.versionset = c.versionset ∧ c'.version = c.version) ∨ (c.version > srv.baseVersion ∧ c'.versionset = true ∧ c'.version = srv.baseVersion) := by
  unfold Server.handlePDU at h
  split at h
  rename_i c1 e1 h1
  have hv : c1.version = c.version ∧ c1.versionset = c.versionset := by
    split at h1 <;> cases h1 <;> exact ⟨rfl, rfl⟩
  cases h
  by_cases hb : c1.version > srv.baseVersion
  · rw [if_pos hb]
    exact .inr ⟨hv.1 ▸ hb, rfl, rfl⟩
  · rw [if_neg hb]
    exact .inl ⟨hv.2, hv.1⟩

theorem newServer_session (cfg : ServerConfig) (sid : U16) (v : U8) : (newServer cfg sid).sessId[v.toNat]? = if v.toNat < cfg.protocolVersion.toNat + 1 then some (sid + BitVec.ofNat 16 (100 * v.toNat)) else none := by
  simp only [newServer, List.getElem?_map, List.getElem?_range']
  split
  · rename_i h; rw [List.getElem?_range h]; rfl
  · rename_i h; rw [List.getElem?_eq_none (by rw [List.length_range]; omega)]; rfl

theorem session_above {cfg : ServerConfig} {sid : U16} {v : U8} (h : v > (newServer cfg sid).baseVersion) : (newServer cfg sid).sessId[v.toNat]? = none := by
  rw [newServer_session, if_neg]
  have : cfg.protocolVersion.toNat < v.toNat := h
  omega

theorem getSessionId_some {srv : Server} {v : U8} {sid : U16} (h : srv.getSessionId v = .ok sid) : srv.sessId[v.toNat]? = some sid := by
  unfold Server.getSessionId goIndex at h
  split at h
  · rename_i heq; cases h; exact heq
  · cases h

/-! ## C124 -/

/-- The session id looked up, while the notification is not yet on the channel. -/
def NNotifier.Pending (t : NNotifier) (sid : U16) : Prop := ∃ n, t = .session n sid

/-- What holds while a client is served. -/
structure NInv (srv : Server) (s : NSys) : Prop where
  zero : s.client.versionset = false → s.client.version = 0
  unset : s.client.versionset = false → s.queue.countP (mislabelled srv) = 0 ∧ ∀ sid, s.notifier.Pending sid → srv.sessId[0]? = some sid
  once : s.queue.countP (mislabelled srv) ≤ 1
  reader : ∀ es, s.reader = .answering es → ∀ e ∈ es, isNotify e = false
  pending : ∀ sid, s.notifier.Pending sid → srv.sessId[s.client.version.toNat]? = some sid ∨ s.queue.countP (mislabelled srv) = 0

theorem NInv.step {cfg : ServerConfig} {sid : U16} {s t : NSys} (inv : NInv (newServer cfg sid) s) (h : NStep (newServer cfg sid) s t) : NInv (newServer cfg sid) t := by
  cases h with
  | @recv p c e hr hc hx =>
    have hn : ∀ x ∈ e, isNotify x = false := by
      split at hx
      · exact checkVersion_notify hx
      · cases hx; intro x hx; cases hx
    have hv : (s.client.versionset = true → c.versionset = true ∧ c.version = s.client.version) ∧ (s.client.versionset = false → c.versionset = true ∨ (c.versionset = false ∧ c.version = s.client.version)) := by
      split at hx
      · exact checkVersion_version hx
      · cases hx; exact ⟨fun h => ⟨h, rfl⟩, fun h => .inr ⟨h, rfl⟩⟩
    have hu : c.versionset = false → s.client.versionset = false ∧ c.version = s.client.version := fun hcv => by
      cases hs : s.client.versionset with
      | true => rw [(hv.1 hs).1] at hcv; cases hcv
      | false =>
        rcases hv.2 hs with h1 | h1
        · rw [h1] at hcv; cases hcv
        · exact ⟨rfl, h1.2⟩
    refine ⟨fun hcv => ?_, fun hcv => ?_, ?_, fun _ h => (nomatch h), fun k hk => ?_⟩
    · rw [(hu hcv).2]; exact inv.zero (hu hcv).1
    · rw [mislabelled_count hn]; exact inv.unset (hu hcv).1
    · rw [mislabelled_count hn]; exact inv.once
    · rw [mislabelled_count hn]
      cases hs : s.client.versionset with
      | true => show (newServer cfg sid).sessId[c.version.toNat]? = _ ∨ _; rw [(hv.1 hs).2]; exact inv.pending k hk
      | false => exact .inr (inv.unset hs).1
  | @handle p c e hr hx =>
    have hn := handlePDU_notify hx
    obtain ⟨q1, q2⟩ := noteQuery_version s.client p
    have hv := handlePDU_version hx
    rw [q1, q2] at hv
    refine ⟨fun hcv => ?_, fun hcv => ?_, ?_, fun _ h => (nomatch h), fun k hk => ?_⟩
    · rcases hv with hv | hv
      · rw [hv.2]; exact inv.zero (hv.1 ▸ hcv)
      · rw [hv.2.1] at hcv; cases hcv
    · rw [mislabelled_count hn]
      rcases hv with hv | hv
      · exact inv.unset (hv.1 ▸ hcv)
      · rw [hv.2.1] at hcv; cases hcv
    · rw [mislabelled_count hn]; exact inv.once
    · rw [mislabelled_count hn]
      rcases hv with hv | hv
      · show (newServer cfg sid).sessId[c.version.toNat]? = _ ∨ _; rw [hv.2]; exact inv.pending k hk
      · rcases inv.pending k hk with h1 | h1
        · rw [session_above hv.1] at h1; cases h1
        · exact .inr h1
  | @answer p st1 st2 es hr hx => exact ⟨inv.zero, inv.unset, inv.once, fun _ h => by cases h; exact passSimpleHandler_notify hx, inv.pending⟩
  | @emit e es hr =>
    have hn : ∀ x ∈ [e], isNotify x = false := fun x hx => inv.reader _ hr x (List.mem_cons.2 (.inl (List.mem_singleton.1 hx)))
    have hv : (if e = .disconnect then s.client.disconnected else s.client).version = s.client.version ∧ (if e = .disconnect then s.client.disconnected else s.client).versionset = s.client.versionset := by split <;> exact ⟨rfl, rfl⟩
    refine ⟨fun hcv => ?_, fun hcv => ?_, ?_, fun _ h => ?_, fun k hk => ?_⟩
    · rw [hv.1]; exact inv.zero (hv.2 ▸ hcv)
    · rw [mislabelled_count hn]; exact inv.unset (hv.2 ▸ hcv)
    · rw [mislabelled_count hn]; exact inv.once
    · cases h; exact fun x hx => inv.reader _ hr x (List.mem_cons_of_mem _ hx)
    · rw [mislabelled_count hn]
      show (newServer cfg sid).sessId[(if e = .disconnect then s.client.disconnected else s.client).version.toNat]? = _ ∨ _
      rw [hv.1]
      exact inv.pending k hk
  | finish hr => exact ⟨inv.zero, inv.unset, inv.once, fun _ h => (nomatch h), inv.pending⟩
  | begin n hn => exact ⟨inv.zero, fun h => ⟨(inv.unset h).1, fun _ ⟨_, h⟩ => (nomatch h)⟩, inv.once, inv.reader, fun _ ⟨_, h⟩ => (nomatch h)⟩
  | @lookup n k hn hx =>
    have hs := getSessionId_some hx
    refine ⟨inv.zero, fun h => ⟨(inv.unset h).1, ?_⟩, inv.once, inv.reader, ?_⟩
    · rintro _ ⟨_, h'⟩; cases h'; rw [inv.zero h] at hs; exact hs
    · rintro _ ⟨_, h'⟩; cases h'; exact .inl hs
  | @post n k hn =>
    have hp := inv.pending k ⟨n, hn⟩
    have hc : (s.queue ++ [s.client.notify k n]).countP (mislabelled (newServer cfg sid)) = s.queue.countP (mislabelled (newServer cfg sid)) + if (newServer cfg sid).sessId[s.client.version.toNat]? = some k then 0 else 1 := by
      rw [List.countP_append, List.countP_singleton]
      by_cases h : (newServer cfg sid).sessId[s.client.version.toNat]? = some k <;> simp [mislabelled, Client.notify, Client.sendPDU, Pdu.setVersion, h]
    refine ⟨inv.zero, fun h => ⟨?_, fun _ ⟨_, h⟩ => (nomatch h)⟩, ?_, inv.reader, fun _ ⟨_, h⟩ => (nomatch h)⟩
    · rw [hc, (inv.unset h).1, if_pos]
      rw [inv.zero h]
      exact (inv.unset h).2 k ⟨n, hn⟩
    · rw [hc]
      rcases hp with hp | hp
      · rw [if_pos hp]; exact inv.once
      · rw [hp]; split <;> omega

/-- A client that a server has accepted, by either transport. -/
def Accepted (srv : Server) (c : Client) : Prop := c = srv.acceptClientTCP ∨ c = srv.acceptClientSSH

theorem Accepted.version {srv : Server} {c : Client} (h : Accepted srv c) : c.versionset = srv.enforceVersion ∧ c.version = if srv.enforceVersion then srv.baseVersion else 0 := by
  rcases h with rfl | rfl <;> simp only [Server.acceptClientTCP, Server.acceptClientSSH] <;> repeat' split
  all_goals simp_all [Client.fresh, Client.setVersion]

theorem NInv.start {srv : Server} {c : Client} (h : Accepted srv c) : NInv srv (NSys.start c) := by
  refine ⟨fun hv => ?_, fun _ => ⟨rfl, fun _ ⟨_, h⟩ => (nomatch h)⟩, Nat.zero_le _, fun _ h => (nomatch h), fun _ ⟨_, h⟩ => (nomatch h)⟩
  have := h.version
  change c.versionset = false at hv
  rw [hv] at this
  rw [← this.1] at this
  exact this.2

theorem NSteps.inv {cfg : ServerConfig} {sid : U16} {s t : NSys} (inv : NInv (newServer cfg sid) s) (h : NSteps (newServer cfg sid) s t) : NInv (newServer cfg sid) t := by
  induction h with
  | refl => exact inv
  | step _ hs ih => exact ih.step hs

/-- **C124.** In the life of a connection at most one Serial Notify has a session id that is not that of its version, whatever the interleaving. -/
theorem C124_once (cfg : ServerConfig) (sid : U16) (c : Client) (hc : Accepted (newServer cfg sid) c) (s : NSys) (h : NSteps (newServer cfg sid) (NSys.start c) s) : s.queue.countP (mislabelled (newServer cfg sid)) ≤ 1 :=
  (h.inv (.start hc)).once

/-- The version has been negotiated, and the session id that waits is of it. -/
structure NSettled (srv : Server) (s : NSys) : Prop where
  set : s.client.versionset = true
  reader : ∀ es, s.reader = .answering es → ∀ e ∈ es, isNotify e = false
  pending : ∀ sid, s.notifier.Pending sid → srv.sessId[s.client.version.toNat]? = some sid

theorem NSettled.step {cfg : ServerConfig} {sid : U16} {s t : NSys} (inv : NSettled (newServer cfg sid) s) (h : NStep (newServer cfg sid) s t) :
    NSettled (newServer cfg sid) t ∧ ∃ q, t.queue = s.queue ++ q ∧ ∀ e ∈ q, mislabelled (newServer cfg sid) e = false := by
  cases h with
  | @recv p c e hr hc hx =>
    have hn : (∀ x ∈ e, isNotify x = false) ∧ c.versionset = true ∧ c.version = s.client.version := by
      split at hx
      · exact ⟨checkVersion_notify hx, (checkVersion_version hx).1 inv.set⟩
      · cases hx; exact ⟨fun _ h => (nomatch h), inv.set, rfl⟩
    refine ⟨⟨hn.2.1, fun _ h => (nomatch h), fun k hk => ?_⟩, e, rfl, fun x hx => mislabelled_notify (hn.1 x hx)⟩
    show (newServer cfg sid).sessId[c.version.toNat]? = _
    rw [hn.2.2]
    exact inv.pending k hk
  | @handle p c e hr hx =>
    obtain ⟨q1, q2⟩ := noteQuery_version s.client p
    have hv := handlePDU_version hx
    rw [q1, q2] at hv
    refine ⟨⟨?_, fun _ h => (nomatch h), fun k hk => ?_⟩, e, rfl, fun x hx' => mislabelled_notify (handlePDU_notify hx x hx')⟩
    · rcases hv with hv | hv
      · rw [hv.1]; exact inv.set
      · exact hv.2.1
    · show (newServer cfg sid).sessId[c.version.toNat]? = _
      rcases hv with hv | hv
      · rw [hv.2]; exact inv.pending k hk
      · have := inv.pending k hk
        rw [session_above hv.1] at this
        cases this
  | @answer p st1 st2 es hr hx => exact ⟨⟨inv.set, fun _ h => by cases h; exact passSimpleHandler_notify hx, inv.pending⟩, [], (List.append_nil _).symm, fun _ h => (nomatch h)⟩
  | @emit e es hr =>
    have hv : (if e = .disconnect then s.client.disconnected else s.client).version = s.client.version ∧ (if e = .disconnect then s.client.disconnected else s.client).versionset = s.client.versionset := by split <;> exact ⟨rfl, rfl⟩
    refine ⟨⟨hv.2.trans inv.set, fun _ h => ?_, fun k hk => ?_⟩, [e], rfl, fun x hx => ?_⟩
    · cases h; exact fun x hx => inv.reader _ hr x (List.mem_cons_of_mem _ hx)
    · show (newServer cfg sid).sessId[(if e = .disconnect then s.client.disconnected else s.client).version.toNat]? = _
      rw [hv.1]
      exact inv.pending k hk
    · exact mislabelled_notify (inv.reader _ hr x (List.mem_cons.2 (.inl (List.mem_singleton.1 hx))))
  | finish hr => exact ⟨⟨inv.set, fun _ h => (nomatch h), inv.pending⟩, [], (List.append_nil _).symm, fun _ h => (nomatch h)⟩
  | begin n hn => exact ⟨⟨inv.set, inv.reader, fun _ ⟨_, h⟩ => (nomatch h)⟩, [], (List.append_nil _).symm, fun _ h => (nomatch h)⟩
  | @lookup n k hn hx =>
    refine ⟨⟨inv.set, inv.reader, ?_⟩, [], (List.append_nil _).symm, fun _ h => (nomatch h)⟩
    rintro _ ⟨_, h'⟩; cases h'; exact getSessionId_some hx
  | @post n k hn =>
    refine ⟨⟨inv.set, inv.reader, fun _ ⟨_, h⟩ => (nomatch h)⟩, _, rfl, fun x hx => ?_⟩
    rw [List.mem_singleton.1 hx]
    simp [mislabelled, Client.notify, Client.sendPDU, Pdu.setVersion, inv.pending k ⟨n, hn⟩]

theorem NSettled.steps {cfg : ServerConfig} {sid : U16} {s t : NSys} (inv : NSettled (newServer cfg sid) s) (h : NSteps (newServer cfg sid) s t) :
    NSettled (newServer cfg sid) t ∧ ∃ q, t.queue = s.queue ++ q ∧ ∀ e ∈ q, mislabelled (newServer cfg sid) e = false := by
  induction h with
  | refl => exact ⟨inv, [], (List.append_nil _).symm, fun _ h => (nomatch h)⟩
  | step _ hs ih =>
    obtain ⟨i1, q1, e1, m1⟩ := ih
    obtain ⟨i2, q2, e2, m2⟩ := i1.step hs
    refine ⟨i2, q1 ++ q2, by rw [e2, e1, List.append_assoc], fun e he => ?_⟩
    rcases List.mem_append.1 he with he | he
    · exact m1 e he
    · exact m2 e he

/-- **C124** (partial: the version has been negotiated, and no notification was under way then). From then on every Serial Notify has the session id of its version. -/
theorem C124_negotiated_partial (cfg : ServerConfig) (sid : U16) (c : Client) (hc : Accepted (newServer cfg sid) c) (s t : NSys) (h : NSteps (newServer cfg sid) (NSys.start c) s) (hv : s.client.versionset = true)
    (hn : ∀ n k, s.notifier ≠ .session n k) (h' : NSteps (newServer cfg sid) s t) : ∃ q, t.queue = s.queue ++ q ∧ ∀ e ∈ q, mislabelled (newServer cfg sid) e = false :=
  (NSettled.steps ⟨hv, (h.inv (.start hc)).reader, fun _ ⟨n, hp⟩ => absurd hp (hn n _)⟩ h').2

/-- **C124.** With `-enforce.version` every Serial Notify has the session id of its version. -/
theorem C124_enforced (cfg : ServerConfig) (he : cfg.enforceVersion = true) (sid : U16) (c : Client) (hc : Accepted (newServer cfg sid) c) (s : NSys) (h : NSteps (newServer cfg sid) (NSys.start c) s) :
    ∀ e ∈ s.queue, mislabelled (newServer cfg sid) e = false := by
  obtain ⟨q, hq, hm⟩ := C124_negotiated_partial cfg sid c hc (NSys.start c) s (.refl _) (hc.version.1.trans he) (fun _ _ h => nomatch h) h
  rw [show s.queue = q from hq]
  exact hm

/-- The default configuration of the command (cmd/stayrtr/stayrtr.go:58-91). -/
def ncfg : ServerConfig := ⟨0, 1, false, 3, false, false, 3600, 600, 7200⟩

/-- A store with one VRP. -/
def nstore : Store := ((Store.init 3).addData [.vrp ⟨⟨.v4 0x0a000000#32, 9⟩, 1, 8, 0⟩]).1

/-- A router's first query arrives while a notification is under way. -/
theorem nrace : NSteps (newServer ncfg 7) (NSys.start (newServer ncfg 7).acceptClientTCP) ⟨(newServer ncfg 7).acceptClientTCP.setVersion 1, .checked (.resetQuery 1), .idle, [.send (.serialNotify 1 7 5)], [.resetQuery 1]⟩ := by
  refine .step (.step (.step (.step (.refl _) (.begin 5 rfl)) (.lookup (sid := 7) rfl rfl)) (.recv (.resetQuery 1) rfl rfl rfl)) (.post rfl)

/-- **C124, what fails.** A router's first query can arrive between the two reads of the version by a notification: the Serial Notify then has version 1 and the session id of version 0. RFC 8210 (section 5.1) makes a router that finds another session id drop the session and flush all data of the cache. -/
theorem C124_race_false : ¬ ∀ (cfg : ServerConfig) (sid : U16) (c : Client), Accepted (newServer cfg sid) c → ∀ s, NSteps (newServer cfg sid) (NSys.start c) s → ∀ e ∈ s.queue, mislabelled (newServer cfg sid) e = false := by
  intro h
  exact absurd (h ncfg 7 _ (.inl rfl) _ nrace _ (.head _)) (by decide)

example : Accepted (newServer ncfg 7) (newServer ncfg 7).acceptClientTCP ∧ (⟨(newServer ncfg 7).acceptClientTCP.setVersion 1, .checked (.resetQuery 1), .idle, [.send (.serialNotify 1 7 5)], [.resetQuery 1]⟩ : NSys).client.versionset = true := ⟨.inl rfl, rfl⟩

/-- After that, in the same connection, a notification with the right session id. -/
example : ∃ s, NSteps (newServer ncfg 7) ⟨(newServer ncfg 7).acceptClientTCP.setVersion 1, .checked (.resetQuery 1), .idle, [.send (.serialNotify 1 7 5)], [.resetQuery 1]⟩ s ∧ s.queue = [.send (.serialNotify 1 7 5), .send (.serialNotify 1 107 6)] :=
  ⟨_, .step (.step (.step (.refl _) (.begin 6 rfl)) (.lookup (sid := 107) rfl rfl)) (.post rfl), rfl⟩

/-! ## C125 -/

/-- A query is answered, and an update is announced in the middle of the answer. -/
theorem ninterrupt : ∃ s, NSteps (newServer ncfg 7) (NSys.start (newServer ncfg 7).acceptClientTCP) s ∧ s.queue = [.send (.cacheResponse 1 107), .send (.serialNotify 1 107 1)] := by
  refine ⟨_, .step (.step (.step (.step (.step (.step (.step (.refl _) (.recv (.resetQuery 1) rfl rfl rfl)) (.handle rfl rfl)) (.answer nstore nstore (es := (newServer ncfg 7).acceptClientTCP.setVersion 1 |>.sendSDs 107 0 nstore.current) rfl rfl)) (.emit rfl))
    (.begin 1 rfl)) (.lookup (sid := 107) rfl rfl)) (.post rfl), ?_⟩
  rfl

/-- **C125, what fails.** A Serial Notify can come in the middle of an answer. rtrdump of the same repository ends its session at that point and writes the part of the data that it has (`C68_partial_file_false`). -/
theorem C125_interrupted_false : ¬ ∀ (cfg : ServerConfig) (sid : U16) (c : Client), Accepted (newServer cfg sid) c → ∀ s, NSteps (newServer cfg sid) (NSys.start c) s → ¬ Interrupted s.queue := by
  intro h
  obtain ⟨s, h1, h2⟩ := ninterrupt
  exact h ncfg 7 _ (.inl rfl) s h1 ⟨[], 1, 107, [], 1, 107, 1, [], h2, fun _ h => nomatch h⟩

/-- What the goroutine of the connection has done, apart from the notifications, is what it does alone. -/
inductive NAlone (srv : Server) (c0 : Client) (s : NSys) : Prop
  | idle (ins : List (Store × Store × Pdu)) (hr : s.reader = .idle) (hs : s.seen = ins.map (·.2.2)) (h : serve srv c0 ins = .ok (s.client, s.queue.filter (fun e => !isNotify e)))
  | checked (ins : List (Store × Store × Pdu)) (c : Client) (out e1 : List Effect) (p : Pdu) (hr : s.reader = .checked p) (hs : s.seen = ins.map (·.2.2) ++ [p]) (h : serve srv c0 ins = .ok (c, out)) (hc : c.connected = true)
      (h1 : (if c.disableVersionCheck = false then c.checkVersion p.getVersion else (c, [])) = (s.client, e1)) (hq : s.queue.filter (fun e => !isNotify e) = out ++ e1)
  | handled (ins : List (Store × Store × Pdu)) (c c1 : Client) (out e1 e3 : List Effect) (p : Pdu) (hr : s.reader = .handled p) (hs : s.seen = ins.map (·.2.2) ++ [p]) (h : serve srv c0 ins = .ok (c, out)) (hc : c.connected = true)
      (h1 : (if c.disableVersionCheck = false then c.checkVersion p.getVersion else (c, [])) = (c1, e1)) (h3 : srv.handlePDU (c1.noteQuery p) = (s.client, e3)) (hq : s.queue.filter (fun e => !isNotify e) = out ++ (e1 ++ e3))
  | answering (ins : List (Store × Store × Pdu)) (c c1 c2 : Client) (out e1 e3 done es : List Effect) (p : Pdu) (st1 st2 : Store) (hr : s.reader = .answering es) (hs : s.seen = ins.map (·.2.2) ++ [p]) (h : serve srv c0 ins = .ok (c, out)) (hc : c.connected = true)
      (h1 : (if c.disableVersionCheck = false then c.checkVersion p.getVersion else (c, [])) = (c1, e1)) (h3 : srv.handlePDU (c1.noteQuery p) = (c2, e3)) (h4 : srv.passSimpleHandler st1 st2 c2 p = .ok (done ++ es))
      (hd : s.client = if Server.drops done then c2.disconnected else c2) (hq : s.queue.filter (fun e => !isNotify e) = out ++ (e1 ++ e3 ++ done))

theorem filter_plain {q e : List Effect} (h : ∀ x ∈ e, isNotify x = false) : (q ++ e).filter (fun e => !isNotify e) = q.filter (fun e => !isNotify e) ++ e := by
  rw [List.filter_append, List.filter_eq_self (l := e) |>.2 fun x hx => by rw [h x hx]; rfl]

theorem serve_snoc {srv : Server} {st1 st2 : Store} {p : Pdu} {c c2 : Client} {e : List Effect} : ∀ {ins : List (Store × Store × Pdu)} {c0 : Client} {out : List Effect}, serve srv c0 ins = .ok (c, out) → c.connected = true →
    srv.processPdu st1 st2 c p = .ok (c2, e) → serve srv c0 (ins ++ [(st1, st2, p)]) = .ok (c2, out ++ e)
  | [], c0, out, h, hc, hp => by
    cases h
    simp only [List.nil_append, serve, hc, Bool.true_eq_false, if_false, hp]
    show GoRes.ok (c2, e ++ []) = _
    rw [List.append_nil]
  | (a, b, q) :: ins, c0, out, h, hc, hp => by
    rw [serve] at h
    split at h
    · rename_i hc0
      cases h
      rw [hc0] at hc
      cases hc
    · rename_i hc0
      rw [List.cons_append, serve, if_neg hc0]
      cases h1 : srv.processPdu a b c0 q with
      | err => rw [h1] at h; cases h
      | panic => rw [h1] at h; cases h
      | ok x =>
        rw [h1] at h
        change (serve srv x.1 ins).bind _ = _ at h
        show (serve srv x.1 (ins ++ [(st1, st2, p)])).bind _ = _
        cases h2 : serve srv x.1 ins with
        | err => rw [h2] at h; cases h
        | panic => rw [h2] at h; cases h
        | ok y =>
          rw [h2] at h
          cases h
          rw [serve_snoc h2 hc hp]
          show GoRes.ok (c2, x.2 ++ (y.2 ++ e)) = _
          rw [List.append_assoc]

theorem checkVersion_enforce {c c' : Client} {v : U8} {e : List Effect} (h : c.checkVersion v = (c', e)) : c'.enforceVersion = c.enforceVersion := by
  unfold Client.checkVersion at h
  split at h <;> cases h <;> rfl

theorem handlePDU_enforce {srv : Server} {c c' : Client} {e : List Effect} (h : srv.handlePDU c = (c', e)) : c'.enforceVersion = c.enforceVersion := by
  unfold Server.handlePDU at h
  split at h
  rename_i c1 e1 h1
  have hv : c1.enforceVersion = c.enforceVersion := by split at h1 <;> cases h1 <;> rfl
  cases h
  split
  · exact hv
  · exact hv

theorem processPdu_parts {srv : Server} {st1 st2 : Store} {c c1 c2 : Client} {p : Pdu} {e1 e3 e4 : List Effect} (he : c.enforceVersion = false) (h1 : (if c.disableVersionCheck = false then c.checkVersion p.getVersion else (c, [])) = (c1, e1))
    (h3 : srv.handlePDU (c1.noteQuery p) = (c2, e3)) (h4 : srv.passSimpleHandler st1 st2 c2 p = .ok e4) : srv.processPdu st1 st2 c p = .ok (if Server.drops e4 then c2.disconnected else c2, e1 ++ e3 ++ e4) := by
  have he1 : c1.enforceVersion = false := by
    split at h1
    · rw [checkVersion_enforce h1, he]
    · cases h1; exact he
  unfold Server.processPdu
  rw [h1]
  simp only [he1, Bool.false_eq_true, false_and, if_false, h3, h4, List.append_nil]
  rfl

theorem processPdu_enforce {srv : Server} {st1 st2 : Store} {c c' : Client} {p : Pdu} {e : List Effect} (he : c.enforceVersion = false) (h : srv.processPdu st1 st2 c p = .ok (c', e)) : c'.enforceVersion = false := by
  cases h1 : (if c.disableVersionCheck = false then c.checkVersion p.getVersion else (c, [])) with
  | mk c1 e1 =>
    cases h3 : srv.handlePDU (c1.noteQuery p) with
    | mk c2 e3 =>
      have he1 : c1.enforceVersion = false := by
        split at h1
        · rw [checkVersion_enforce h1, he]
        · cases h1; exact he
      have he2 : c2.enforceVersion = false := by
        rw [handlePDU_enforce h3]
        cases p <;> exact he1
      cases h4 : srv.passSimpleHandler st1 st2 c2 p with
      | ok e4 =>
        rw [processPdu_parts he h1 h3 h4] at h
        cases h
        split <;> exact he2
      | err =>
        unfold Server.processPdu at h
        rw [h1] at h
        simp only [he1, Bool.false_eq_true, false_and, if_false, h3, h4] at h
        cases h
      | panic =>
        unfold Server.processPdu at h
        rw [h1] at h
        simp only [he1, Bool.false_eq_true, false_and, if_false, h3, h4] at h
        cases h

theorem serve_enforce {srv : Server} {c : Client} : ∀ {ins : List (Store × Store × Pdu)} {c0 : Client} {out : List Effect}, c0.enforceVersion = false → serve srv c0 ins = .ok (c, out) → c.enforceVersion = false
  | [], c0, out, he, h => by cases h; exact he
  | (a, b, q) :: ins, c0, out, he, h => by
    rw [serve] at h
    split at h
    · cases h; exact he
    · cases h1 : srv.processPdu a b c0 q with
      | err => rw [h1] at h; cases h
      | panic => rw [h1] at h; cases h
      | ok x =>
        rw [h1] at h
        change (serve srv x.1 ins).bind _ = _ at h
        cases h2 : serve srv x.1 ins with
        | err => rw [h2] at h; cases h
        | panic => rw [h2] at h; cases h
        | ok y =>
          rw [h2] at h
          cases h
          exact serve_enforce (processPdu_enforce he h1) h2

theorem drops_snoc (l : List Effect) (e : Effect) (c : Client) : (if Server.drops (l ++ [e]) then c.disconnected else c) = if e = .disconnect then (if Server.drops l then c.disconnected else c).disconnected else if Server.drops l then c.disconnected else c := by
  unfold Server.drops
  rw [List.any_append]
  by_cases he : e = .disconnect
  · subst he
    rw [if_pos rfl, if_pos (by simp)]
    split <;> rfl
  · rw [if_neg he]
    simp [he]

theorem NAlone.step {srv : Server} {c0 : Client} {s t : NSys} (h0 : c0.enforceVersion = false) (inv : NAlone srv c0 s) (h : NStep srv s t) : NAlone srv c0 t := by
  cases h with
  | @recv p c e hr hc hx =>
    cases inv with
    | idle ins hr' hs h =>
      refine .checked ins s.client _ e p rfl (congrArg (· ++ [p]) hs) h hc hx ?_
      refine filter_plain ?_
      split at hx
      · exact checkVersion_notify hx
      · cases hx; exact fun _ h => nomatch h
    | checked _ _ _ _ _ hr' => rw [hr] at hr'; cases hr'
    | handled _ _ _ _ _ _ _ hr' => rw [hr] at hr'; cases hr'
    | answering _ _ _ _ _ _ _ _ _ _ _ _ hr' => rw [hr] at hr'; cases hr'
  | @handle p c e hr hx =>
    cases inv with
    | checked ins c' out e1 p' hr' hs h hc h1 hq =>
      rw [hr] at hr'
      cases hr'
      exact .handled ins c' s.client out e1 e p rfl hs h hc h1 hx (by rw [filter_plain (handlePDU_notify hx), hq, List.append_assoc])
    | idle _ hr' => rw [hr] at hr'; cases hr'
    | handled _ _ _ _ _ _ _ hr' => rw [hr] at hr'; cases hr'
    | answering _ _ _ _ _ _ _ _ _ _ _ _ hr' => rw [hr] at hr'; cases hr'
  | @answer p st1 st2 es hr hx =>
    cases inv with
    | handled ins c c1 out e1 e3 p' hr' hs h hc h1 h3 hq =>
      rw [hr] at hr'
      cases hr'
      exact .answering ins c c1 s.client out e1 e3 [] es p st1 st2 rfl hs h hc h1 h3 hx rfl (by rw [hq, List.append_nil])
    | idle _ hr' => rw [hr] at hr'; cases hr'
    | checked _ _ _ _ _ hr' => rw [hr] at hr'; cases hr'
    | answering _ _ _ _ _ _ _ _ _ _ _ _ hr' => rw [hr] at hr'; cases hr'
  | @emit e es hr =>
    cases inv with
    | answering ins c c1 c2 out e1 e3 done es' p st1 st2 hr' hs h hc h1 h3 h4 hd hq =>
      rw [hr] at hr'
      cases hr'
      have h4' : srv.passSimpleHandler st1 st2 c2 p = .ok ((done ++ [e]) ++ es) := by rw [List.append_assoc]; exact h4
      refine .answering ins c c1 c2 out e1 e3 (done ++ [e]) es p st1 st2 rfl hs h hc h1 h3 h4' ?_ ?_
      · rw [drops_snoc, ← hd]
      · rw [filter_plain fun x hx => passSimpleHandler_notify h4 x (List.mem_append_right _ (by rw [List.mem_singleton.1 hx]; exact .head _)), hq]
        simp only [List.append_assoc]
    | idle _ hr' => rw [hr] at hr'; cases hr'
    | checked _ _ _ _ _ hr' => rw [hr] at hr'; cases hr'
    | handled _ _ _ _ _ _ _ hr' => rw [hr] at hr'; cases hr'
  | finish hr =>
    cases inv with
    | answering ins c c1 c2 out e1 e3 done es' p st1 st2 hr' hs h hc h1 h3 h4 hd hq =>
      rw [hr] at hr'
      cases hr'
      rw [List.append_nil] at h4
      refine .idle (ins ++ [(st1, st2, p)]) rfl (by rw [List.map_append]; exact hs) ?_
      rw [serve_snoc h hc (processPdu_parts (serve_enforce h0 h) h1 h3 h4), hq, ← hd]
    | idle _ hr' => rw [hr] at hr'; cases hr'
    | checked _ _ _ _ _ hr' => rw [hr] at hr'; cases hr'
    | handled _ _ _ _ _ _ _ hr' => rw [hr] at hr'; cases hr'
  | begin n hn =>
    cases inv with
    | idle ins hr hs h => exact .idle ins hr hs h
    | checked ins c out e1 p hr hs h hc h1 hq => exact .checked ins c out e1 p hr hs h hc h1 hq
    | handled ins c c1 out e1 e3 p hr hs h hc h1 h3 hq => exact .handled ins c c1 out e1 e3 p hr hs h hc h1 h3 hq
    | answering ins c c1 c2 out e1 e3 done es p st1 st2 hr hs h hc h1 h3 h4 hd hq => exact .answering ins c c1 c2 out e1 e3 done es p st1 st2 hr hs h hc h1 h3 h4 hd hq
  | @lookup n k hn hx =>
    cases inv with
    | idle ins hr hs h => exact .idle ins hr hs h
    | checked ins c out e1 p hr hs h hc h1 hq => exact .checked ins c out e1 p hr hs h hc h1 hq
    | handled ins c c1 out e1 e3 p hr hs h hc h1 h3 hq => exact .handled ins c c1 out e1 e3 p hr hs h hc h1 h3 hq
    | answering ins c c1 c2 out e1 e3 done es p st1 st2 hr hs h hc h1 h3 h4 hd hq => exact .answering ins c c1 c2 out e1 e3 done es p st1 st2 hr hs h hc h1 h3 h4 hd hq
  | @post n k hn =>
    have hf : (s.queue ++ [s.client.notify k n]).filter (fun e => !isNotify e) = s.queue.filter (fun e => !isNotify e) := by
      rw [List.filter_append]
      show _ ++ [] = _
      rw [List.append_nil]
    cases inv with
    | idle ins hr hs h => exact .idle ins hr hs (by rw [hf]; exact h)
    | checked ins c out e1 p hr hs h hc h1 hq => exact .checked ins c out e1 p hr hs h hc h1 (by rw [hf]; exact hq)
    | handled ins c c1 out e1 e3 p hr hs h hc h1 h3 hq => exact .handled ins c c1 out e1 e3 p hr hs h hc h1 h3 (by rw [hf]; exact hq)
    | answering ins c c1 c2 out e1 e3 done es p st1 st2 hr hs h hc h1 h3 h4 hd hq => exact .answering ins c c1 c2 out e1 e3 done es p st1 st2 hr hs h hc h1 h3 h4 hd (by rw [hf]; exact hq)

/-- **C125** (partial: apart from the notifications). Whatever the interleaving, what is put on the channel, without the Serial Notifies, is what the read loop alone puts there for the PDUs that it read: the answers are complete, in order and unmixed. -/
theorem C125_rest_partial (srv : Server) (c : Client) (hc : Accepted srv c) (s : NSys) (h : NSteps srv (NSys.start c) s) (hr : s.reader = .idle) :
    ∃ ins, ins.map (·.2.2) = s.seen ∧ serve srv c ins = .ok (s.client, s.queue.filter (fun e => !isNotify e)) := by
  have h0 : c.enforceVersion = false := by
    rcases hc with rfl | rfl <;> simp only [Server.acceptClientTCP, Server.acceptClientSSH] <;> repeat' split
    all_goals rfl
  have inv : NAlone srv c s := by
    clear hr
    induction h with
    | refl => exact .idle [] rfl rfl rfl
    | step _ hs ih => exact ih.step h0 hs
  cases inv with
  | idle ins _ hs h => exact ⟨ins, hs.symm, h⟩
  | checked _ _ _ _ _ hr' => rw [hr] at hr'; cases hr'
  | handled _ _ _ _ _ _ _ hr' => rw [hr] at hr'; cases hr'
  | answering _ _ _ _ _ _ _ _ _ _ _ _ hr' => rw [hr] at hr'; cases hr'

/-- A query on an empty store, with a notification before the answer. -/
example : ∃ s, NSteps (newServer ncfg 7) (NSys.start (newServer ncfg 7).acceptClientTCP) s ∧ s.reader = .idle ∧ s.seen = [.resetQuery 1] ∧
    s.queue = [.send (.serialNotify 1 107 1), .send (.errorReport 1 2 [] (strBytes "No data available"))] :=
  ⟨_, .step (.step (.step (.step (.step (.step (.step (.step (.refl _) (.recv (.resetQuery 1) rfl rfl rfl)) (.handle rfl rfl)) (.begin 1 rfl)) (.lookup (sid := 107) rfl rfl)) (.post rfl))
    (.answer (Store.init 3) (Store.init 3) rfl rfl)) (.emit rfl)) (.finish rfl), rfl, rfl, rfl⟩

end StayRTR
