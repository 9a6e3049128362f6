import Verif.Model.Broadcast
import Verif.Props.Notify

/-!
# C126: no router misses an update
-/

namespace StayRTR

namespace Spec

/-- An answer ended with the serial `m`. -/
def EndedWith (m : U32) (l : List BMsg) : Prop := ∃ v s a b c, .eff (.send (.endOfData v s m a b c)) ∈ l

/-- A Serial Notify with the serial `n` was sent. -/
def Told (n : U32) (l : List BMsg) : Prop := ∃ v s, .eff (.send (.serialNotify v s n)) ∈ l

/-- The serials of the Serial Notifies, in order. -/
def notified : List BMsg → List U32
  | [] => []
  | .eff (.send (.serialNotify _ _ n)) :: l => n :: notified l
  | _ :: l => notified l

/-- An End of Data. -/
def isEnd : Effect → Bool
  | .send (.endOfData ..) => true
  | _ => false

end Spec

open Spec

/-! ## What is put on the channel -/

theorem checkVersion_end {c c' : Client} {v : U8} {e : List Effect} (h : c.checkVersion v = (c', e)) : ∀ x ∈ e, isEnd x = false := by
  unfold Client.checkVersion at h
  split at h <;> cases h
  · intro x hx; cases hx
  · intro x hx; simp only [List.mem_cons, List.not_mem_nil, or_false] at hx; rcases hx with rfl | rfl <;> rfl

theorem handlePDU_end {srv : Server} {c c' : Client} {e : List Effect} (h : srv.handlePDU c = (c', e)) : ∀ x ∈ e, isEnd x = false := by
  unfold Server.handlePDU at h
  split at h
  rename_i c1 e1 h1
  split at h1 <;> cases h1 <;> cases h
  · intro x hx; simp only [List.mem_cons, List.not_mem_nil, or_false] at hx; rcases hx with rfl | rfl <;> rfl
  · intro x hx; cases hx

theorem sendData_end (c : Client) (x : SD) : ∀ e ∈ c.sendData x, isEnd e = false := by
  intro e he
  unfold Client.sendData at he
  cases x with
  | vrp t =>
    simp only at he
    repeat' split at he
    all_goals simp only [List.mem_singleton, List.not_mem_nil] at he
    all_goals subst he; rfl
  | brk t =>
    simp only at he
    split at he
    all_goals simp only [List.mem_singleton, List.not_mem_nil] at he
    subst he; rfl

theorem sendSDs_end {c : Client} {sid : U16} {n m : U32} {l : List SD} {v s a b d} (h : .send (.endOfData v s m a b d) ∈ c.sendSDs sid n l) : m = n := by
  unfold Client.sendSDs at h
  rcases List.mem_append.1 h with h | h
  · rcases List.mem_append.1 h with h | h
    · rw [List.mem_singleton] at h; cases h
    · obtain ⟨x, -, hx⟩ := List.mem_flatMap.1 h
      exact absurd (sendData_end c x _ hx) (by simp [isEnd])
  · rw [List.mem_singleton] at h; cases h; rfl

theorem passSimpleHandler_end {srv : Server} {st1 st2 : Store} {c : Client} {p : Pdu} {es : List Effect} (h : srv.passSimpleHandler st1 st2 c p = .ok es) {m : U32} {v s a b d} (he : .send (.endOfData v s m a b d) ∈ es) :
    m = st1.serial := by
  cases p
  case serialQuery v a b =>
    change srv.requestNewVersion st1 st2 c a b = .ok es at h
    unfold Server.requestNewVersion at h
    cases hs : srv.getSessionId c.version with
    | err => rw [hs] at h; cases h
    | panic => rw [hs] at h; cases h
    | ok s =>
      rw [hs] at h
      change (if a ≠ s then _ else _) = _ at h
      split at h
      · cases h; simp [Client.sendCorruptData, Client.sendPDU, Pdu.setVersion] at he
      · change (if _ = false then _ else _) = _ at h
        split at h
        · cases h; simp [Client.sendNoDataError, Client.sendPDU, Pdu.setVersion] at he
        · cases hd : st2.getSDsSerialDiff b with
          | err => rw [hd] at h; cases h
          | panic => rw [hd] at h; cases h
          | ok o =>
            rw [hd] at h
            cases o with
            | none => cases h; simp [Client.sendCacheReset, Client.sendPDU, Pdu.setVersion] at he
            | some d => cases h; exact sendSDs_end he
  case resetQuery v =>
    change srv.requestCache st1 st2 c = .ok es at h
    unfold Server.requestCache at h
    cases hs : srv.getSessionId c.version with
    | err => rw [hs] at h; cases h
    | panic => rw [hs] at h; cases h
    | ok s =>
      rw [hs] at h
      change (if _ = false then _ else _) = _ at h
      split at h
      · cases h; simp [Client.sendNoDataError, Client.sendPDU, Pdu.setVersion] at he
      · cases h; exact sendSDs_end he
  all_goals cases h; cases he

theorem Spec.EndedWith.append {m : U32} {l r : List BMsg} : EndedWith m (l ++ r) ↔ EndedWith m l ∨ EndedWith m r := by
  constructor
  · rintro ⟨v, s, a, b, c, h⟩
    rcases List.mem_append.1 h with h | h
    · exact .inl ⟨v, s, a, b, c, h⟩
    · exact .inr ⟨v, s, a, b, c, h⟩
  · rintro (⟨v, s, a, b, c, h⟩ | ⟨v, s, a, b, c, h⟩)
    · exact ⟨v, s, a, b, c, List.mem_append_left _ h⟩
    · exact ⟨v, s, a, b, c, List.mem_append_right _ h⟩

theorem not_ended {m : U32} {e : List Effect} (h : ∀ x ∈ e, isEnd x = false) : ¬ EndedWith m (e.map .eff) := by
  rintro ⟨v, s, a, b, c, hm⟩
  obtain ⟨x, hx, he⟩ := List.mem_map.1 hm
  cases he
  exact absurd (h _ hx) (by simp [isEnd])

theorem Spec.Told.left {n : U32} {l r : List BMsg} (h : Told n l) : Told n (l ++ r) := by
  obtain ⟨v, s, h⟩ := h
  exact ⟨v, s, List.mem_append_left _ h⟩

/-! ## The invariant -/

/-- A notification of the client is still to come. -/
def BUpdater.Owes (u : BUpdater) (i : Nat) : Prop := u = .added ∨ (∃ n, u = .counted n) ∨ ∃ n rest, u = .sending n rest ∧ i ∈ rest

/-- Somebody who was told `m` knows better or will. -/
def Aware (s : BSys) (i : Nat) (m : U32) (l : List BMsg) : Prop := m = s.store.serial ∨ Told s.store.serial l ∨ s.updater.Owes i

theorem Aware.left {s : BSys} {i : Nat} {m : U32} {l r : List BMsg} (h : Aware s i m l) : Aware s i m (l ++ r) := by
  rcases h with h | h | h
  · exact .inl h
  · exact .inr (.inl h.left)
  · exact .inr (.inr h)

/-- What holds of a connection. -/
structure BOk (s : BSys) (i : Nat) (k : BConn) : Prop where
  ended : ∀ A p l m, k.log = A ++ .asked p :: l → EndedWith m l → Aware s i m l
  counted : ∀ A p l q st, k.log = A ++ .asked p :: l → k.reader = .counted q st → Aware s i st.serial l
  answering : ∀ A p l es m, k.log = A ++ .asked p :: l → k.reader = .answering es → EndedWith m (es.map .eff) → Aware s i m l

/-- What holds of the updating goroutine. -/
def BUpdater.Fresh (u : BUpdater) (n : U32) : Prop := (∀ m, u = .counted m → m = n) ∧ ∀ m rest, u = .sending m rest → m = n

/-- The invariant. -/
structure BInv (s : BSys) : Prop where
  fresh : s.updater.Fresh s.store.serial
  known : s.loud = false → s.updater = .idle
  ok : s.loud = true → ∀ i ∈ s.clients, ∀ k, s.conn i = some k → BOk s i k

/-- A question of a longer log. -/
theorem split_append {A : List BMsg} {p : Pdu} {l log r : List BMsg} (h : log ++ r = A ++ .asked p :: l) (hr : ∀ q, .asked q ∉ r) : ∃ l', log = A ++ .asked p :: l' ∧ l = l' ++ r := by
  rcases List.append_eq_append_iff.1 h with ⟨u, h1, h2⟩ | ⟨u, h1, h2⟩
  · exact absurd (h2 ▸ List.mem_append_right u (.head _)) (hr p)
  · cases u with
    | nil =>
      simp only [List.nil_append] at h2
      exact absurd (h2 ▸ .head _) (hr p)
    | cons x u =>
      simp only [List.cons_append, List.cons.injEq] at h2
      exact ⟨u, h1.trans (by rw [← h2.1]), h2.2⟩

theorem map_asked {e : List Effect} (q : Pdu) : .asked q ∉ e.map BMsg.eff := by
  intro h
  obtain ⟨x, -, hx⟩ := List.mem_map.1 h
  cases hx

/-- One connection goes on. -/
theorem BInv.put {s : BSys} (inv : BInv s) {i : Nat} {k k' : BConn} {e : List Effect} (hk : s.conn i = some k) (h : BOk s i k → BOk (s.put i k' e) i k') : BInv (s.put i k' e) := by
  refine ⟨inv.fresh, inv.known, fun hl j hj kj hkj => ?_⟩
  have hj' : j ∈ s.clients := by
    unfold BSys.put at hj
    split at hj
    · exact (List.mem_filter.1 hj).1
    · exact hj
  by_cases he : j = i
  · subst he
    have : kj = k' := by
      have h2 : (if j = j then some k' else s.conn j) = some kj := hkj
      rw [if_pos rfl] at h2
      exact (Option.some.inj h2).symm
    subst this
    exact h (inv.ok hl j hj' k hk)
  · have h2 : (if j = i then some k' else s.conn j) = some kj := hkj
    rw [if_neg he] at h2
    have ok := inv.ok hl j hj' kj h2
    exact ⟨ok.ended, ok.counted, ok.answering⟩

/-- The goroutine of a connection goes on, having done `e`. -/
theorem BOk.act {s : BSys} {i : Nat} {k : BConn} (ok : BOk s i k) {c : Client} {r : BReader} {e f : List Effect} (he : ∀ A p l m, k.log = A ++ .asked p :: l → EndedWith m (e.map .eff) → Aware s i m l)
    (hr : ∀ A p l q st, k.log = A ++ .asked p :: l → r = .counted q st → Aware s i st.serial l) (ha : ∀ A p l es m, k.log = A ++ .asked p :: l → r = .answering es → EndedWith m (es.map .eff) → Aware s i m l) :
    BOk (s.put i (k.act c r e) f) i (k.act c r e) := by
  refine ⟨fun A p l m h hm => ?_, fun A p l q st h hq => ?_, fun A p l es m h hq hm => ?_⟩
  · obtain ⟨l', h1, rfl⟩ := split_append h (fun q => map_asked q)
    rcases EndedWith.append.1 hm with hm | hm
    · exact (ok.ended _ _ _ _ h1 hm).left
    · exact (he _ _ _ _ h1 hm).left
  · obtain ⟨l', h1, rfl⟩ := split_append h (fun q => map_asked q)
    exact (hr _ _ _ _ _ h1 hq).left
  · obtain ⟨l', h1, rfl⟩ := split_append h (fun q => map_asked q)
    exact (ha _ _ _ _ _ h1 hq hm).left

theorem addData_changed {st st' : Store} {new : List SD} (h : st.addData new = (st', true)) : st' = st.addSDsDiff ((computeDiff new st.current false).1 ++ (computeDiff new st.current false).2.1) := by
  unfold Store.addData at h
  simp only at h
  split at h
  · cases h
  · cases h; rfl

theorem BInv.step {srv : Server} {s t : BSys} (inv : BInv s) (h : BStep srv s t) : BInv t := by
  cases h with
  | @connect i c hi hc =>
    refine ⟨inv.fresh, inv.known, fun hl j hj kj hkj => ?_⟩
    have h2 : (if j = i then some ⟨c, .idle, []⟩ else s.conn j) = some kj := hkj
    by_cases he : j = i
    · rw [if_pos he] at h2
      cases h2
      have hn : ∀ (A : List BMsg) p l, ([] : List BMsg) = A ++ .asked p :: l → False := fun A p l h => by cases A <;> cases h
      exact ⟨fun A p l m h => (hn A p l h).elim, fun A p l _ _ h => (hn A p l h).elim, fun A p l _ m h => (hn A p l h).elim⟩
    · rw [if_neg he] at h2
      rcases List.mem_append.1 hj with hj | hj
      · have ok := inv.ok hl j hj kj h2
        exact ⟨ok.ended, ok.counted, ok.answering⟩
      · exact absurd (List.mem_singleton.1 hj) he
  | @recv i k p c e hk hr hc hx =>
    have hn : ∀ x ∈ e, isEnd x = false := by
      split at hx
      · exact checkVersion_end hx
      · cases hx; intro x hx; cases hx
    refine inv.put hk fun ok => ⟨fun A q l m h hm => ?_, fun _ _ _ _ _ _ h => (nomatch h), fun _ _ _ _ _ _ h => (nomatch h)⟩
    have h' : (k.log ++ [.asked p]) ++ e.map .eff = A ++ .asked q :: l := by rw [← h]; simp
    obtain ⟨l', h1, rfl⟩ := split_append h' (fun q => map_asked q)
    rcases EndedWith.append.1 hm with hm | hm
    · rcases List.eq_nil_or_concat l' with rfl | ⟨l2, x, rfl⟩
      · obtain ⟨_, _, _, _, _, hm⟩ := hm; cases hm
      · have h3 : k.log ++ [.asked p] = (A ++ .asked q :: l2) ++ [x] := by rw [h1]; simp
        have h4 := List.append_inj' h3 rfl
        have hx' : x = .asked p := (List.cons.inj h4.2).1.symm
        rw [List.concat_eq_append] at hm ⊢
        rcases EndedWith.append.1 hm with hm | hm
        · have := (ok.ended _ _ _ _ h4.1 hm).left (r := [x]) |>.left (r := e.map .eff)
          exact this
        · obtain ⟨_, _, _, _, _, hm⟩ := hm
          rw [List.mem_singleton, hx'] at hm
          cases hm
    · exact absurd hm (not_ended hn)
  | @handle i k p c e hk hr hx =>
    exact inv.put hk fun ok => ok.act (fun _ _ _ _ _ hm => absurd hm (not_ended (handlePDU_end hx))) (fun _ _ _ _ _ _ h => (nomatch h)) (fun _ _ _ _ _ _ h => (nomatch h))
  | @count i k p hk hr =>
    refine inv.put hk fun ok => ok.act (fun _ _ _ _ _ hm => absurd hm (not_ended (fun _ h => (nomatch h)))) (fun _ _ _ _ _ _ h => ?_) (fun _ _ _ _ _ _ h => (nomatch h))
    cases h
    exact .inl rfl
  | @answer i k p st es hk hr hx =>
    refine inv.put hk fun ok => ok.act (fun _ _ _ _ _ hm => absurd hm (not_ended (fun _ h => (nomatch h)))) (fun _ _ _ _ _ _ h => (nomatch h)) (fun A q l es' m h h2 hm => ?_)
    cases h2
    obtain ⟨v, s', a, b, d, hm⟩ := hm
    obtain ⟨x, hx1, hx2⟩ := List.mem_map.1 hm
    cases hx2
    rw [passSimpleHandler_end hx hx1]
    exact ok.counted _ _ _ _ _ h hr
  | @emit i k e es hk hr =>
    refine inv.put hk fun ok => ok.act (fun A q l m h hm => ok.answering _ _ _ _ _ h hr ?_) (fun _ _ _ _ _ _ h => (nomatch h)) (fun A q l es' m h h2 hm => ok.answering _ _ _ _ _ h hr ?_)
    · rw [List.map_cons, ← List.singleton_append]
      exact EndedWith.append.2 (.inl hm)
    · cases h2
      rw [List.map_cons, ← List.singleton_append]
      exact EndedWith.append.2 (.inr hm)
  | @finish i k hk hr =>
    exact inv.put hk fun ok => ok.act (fun _ _ _ _ _ hm => absurd hm (not_ended (fun _ h => (nomatch h)))) (fun _ _ _ _ _ _ h => (nomatch h)) (fun _ _ _ _ _ _ h => (nomatch h))
  | @lost i k hk hr =>
    refine inv.put hk fun ok => ok.act (fun _ _ _ _ _ hm => absurd hm (not_ended (fun x h => ?_))) (fun _ _ _ _ _ _ h => (nomatch h)) (fun _ _ _ _ _ _ h => (nomatch h))
    rw [List.mem_singleton] at h; subst h; rfl
  | @publish new st hu hx =>
    refine ⟨⟨fun _ h => (nomatch h), fun _ _ h => (nomatch h)⟩, fun h => (nomatch h), fun _ i hi k hk => ?_⟩
    exact ⟨fun _ _ _ _ _ _ => .inr (.inr (.inl rfl)), fun _ _ _ _ _ _ _ => .inr (.inr (.inl rfl)), fun _ _ _ _ _ _ _ _ => .inr (.inr (.inl rfl))⟩
  | @silent new st hu hx =>
    exact ⟨⟨fun _ h => (nomatch hu.symm.trans h), fun _ _ h => (nomatch hu.symm.trans h)⟩, fun _ => hu, fun h => (nomatch h)⟩
  | serial hu =>
    refine ⟨⟨fun m h => (by cases h; rfl), fun _ _ h => (nomatch h)⟩, fun h => ?_, fun _ i hi k hk => ?_⟩
    · have := inv.known h; rw [hu] at this; cases this
    · exact ⟨fun _ _ _ _ _ _ => .inr (.inr (.inr (.inl ⟨_, rfl⟩))), fun _ _ _ _ _ _ _ => .inr (.inr (.inr (.inl ⟨_, rfl⟩))), fun _ _ _ _ _ _ _ _ => .inr (.inr (.inr (.inl ⟨_, rfl⟩)))⟩
  | @list n hu =>
    refine ⟨⟨fun _ h => (nomatch h), fun m r h => by cases h; exact inv.fresh.1 _ hu⟩, fun h => ?_, fun _ i hi k hk => ?_⟩
    · have := inv.known h; rw [hu] at this; cases this
    · exact ⟨fun _ _ _ _ _ _ => .inr (.inr (.inr (.inr ⟨_, _, rfl, hi⟩))), fun _ _ _ _ _ _ _ => .inr (.inr (.inr (.inr ⟨_, _, rfl, hi⟩))), fun _ _ _ _ _ _ _ _ => .inr (.inr (.inr (.inr ⟨_, _, rfl, hi⟩)))⟩
  | @post n i rest k sid hu hk hx =>
    refine ⟨⟨fun _ h => (nomatch h), fun m r h => by cases h; exact inv.fresh.2 _ _ hu⟩, fun h => ?_, fun hl j hj kj hkj => ?_⟩
    · have := inv.known h; rw [hu] at this; cases this
    · have hj' : j ∈ s.clients := by
        have : j ∈ (if Effect.disconnect ∈ ([] : List Effect) then s.clients.filter (· ≠ i) else s.clients) := hj
        rwa [if_neg (by simp)] at this
      have h2 : (if j = i then some (k.act k.client k.reader [k.client.notify sid n]) else s.conn j) = some kj := hkj
      by_cases he : j = i
      · rw [if_pos he] at h2
        cases h2
        have hn : n = s.store.serial := inv.fresh.2 _ _ hu
        have ht : ∀ l, Told s.store.serial (l ++ [k.client.notify sid n].map .eff) := fun l => ⟨k.client.version, sid, List.mem_append_right _ (by rw [← hn]; exact .head _)⟩
        refine ⟨fun A p l m h _ => ?_, fun A p l q st h _ => ?_, fun A p l es m h _ _ => ?_⟩ <;>
        · obtain ⟨l', h1, rfl⟩ := split_append h (fun q => map_asked q)
          exact .inr (.inl (ht _))
      · rw [if_neg he] at h2
        have ok := inv.ok hl j hj' kj h2
        have ha : ∀ m l, Aware s j m l → Aware { s.put i (k.act k.client k.reader [k.client.notify sid n]) [] with updater := .sending n rest } j m l := by
          rintro m l (h | h | h | ⟨_, h⟩ | ⟨_, _, h, hm⟩)
          · exact .inl h
          · exact .inr (.inl h)
          · rw [hu] at h; cases h
          · rw [hu] at h; cases h
          · rw [hu] at h
            cases h
            rcases List.mem_cons.1 hm with hm | hm
            · exact absurd hm he
            · exact .inr (.inr (.inr (.inr ⟨_, _, rfl, hm⟩)))
        exact ⟨fun _ _ _ _ h hm => ha _ _ (ok.ended _ _ _ _ h hm), fun _ _ _ _ _ h hm => ha _ _ (ok.counted _ _ _ _ _ h hm), fun _ _ _ _ _ h hm hn => ha _ _ (ok.answering _ _ _ _ _ h hm hn)⟩
  | @done n hu =>
    refine ⟨⟨fun _ h => (nomatch h), fun _ _ h => (nomatch h)⟩, fun _ => rfl, fun hl j hj kj hkj => ?_⟩
    have ok := inv.ok hl j hj kj hkj
    have ha : ∀ m l, Aware s j m l → Aware { s with updater := .idle } j m l := by
      rintro m l (h | h | h | ⟨_, h⟩ | ⟨_, _, h, hm⟩)
      · exact .inl h
      · exact .inr (.inl h)
      · rw [hu] at h; cases h
      · rw [hu] at h; cases h
      · rw [hu] at h; cases h; cases hm
    exact ⟨fun _ _ _ _ h hm => ha _ _ (ok.ended _ _ _ _ h hm), fun _ _ _ _ _ h hm => ha _ _ (ok.counted _ _ _ _ _ h hm), fun _ _ _ _ _ h hm hn => ha _ _ (ok.answering _ _ _ _ _ h hm hn)⟩

theorem BInv.start (st : Store) : BInv (BSys.start st) := ⟨⟨fun _ h => (nomatch h), fun _ _ h => (nomatch h)⟩, fun _ => rfl, fun h => (nomatch h)⟩

theorem BInv.steps {srv : Server} {s t : BSys} (inv : BInv s) (h : BSteps srv s t) : BInv t := by
  induction h with
  | refl => exact inv
  | step _ hs ih => exact ih.step hs

/-- **C126.** When the updating goroutine is done, every connected router that was answered with another serial than the current one was sent a Serial Notify with the current one after it asked; however the updates interleave with the
queries, and with routers that come and go. -/
theorem C126_told (srv : Server) (st : Store) (s : BSys) (hs : BSteps srv (.start st) s) (hu : s.updater = .idle) (hl : s.loud = true) (i : Nat) (hi : i ∈ s.clients) (k : BConn) (hk : s.conn i = some k)
    (A l : List BMsg) (p : Pdu) (hlog : k.log = A ++ .asked p :: l) (m : U32) (hm : EndedWith m l) (hne : m ≠ s.store.serial) : Told s.store.serial l := by
  rcases ((BInv.start st).steps hs).ok hl i hi k hk |>.ended A p l m hlog hm with h | h | h
  · exact absurd h hne
  · exact h
  · rw [hu] at h
    rcases h with h | ⟨_, h⟩ | ⟨_, _, h, _⟩ <;> cases h

/-- **C126.** So a router that asks again when it was told another serial than it was answered with is up to date once it has no reason to ask. -/
theorem C126_settled (srv : Server) (st : Store) (s : BSys) (hs : BSteps srv (.start st) s) (hu : s.updater = .idle) (hl : s.loud = true) (i : Nat) (hi : i ∈ s.clients) (k : BConn) (hk : s.conn i = some k)
    (A l : List BMsg) (p : Pdu) (hlog : k.log = A ++ .asked p :: l) (m : U32) (hm : EndedWith m l) (hq : ∀ n, Told n l → n = m) : m = s.store.serial := by
  by_cases hne : m = s.store.serial
  · exact hne
  · exact (hq _ (C126_told srv st s hs hu hl i hi k hk A l p hlog m hm hne)).symm

/-! ## Each update once, in order -/

theorem notified_append (l r : List BMsg) : notified (l ++ r) = notified l ++ notified r := by
  induction l with
  | nil => rfl
  | cons x l ih =>
    rw [List.cons_append]
    cases x with
    | asked p => exact ih
    | eff e =>
      cases e with
      | disconnect => exact ih
      | send p => cases p <;> first | exact ih | exact congrArg _ ih

theorem notified_eff {e : List Effect} (h : ∀ x ∈ e, isNotify x = false) : notified (e.map .eff) = [] := by
  induction e with
  | nil => rfl
  | cons x e ih =>
    have ih := ih fun y hy => h y (.tail _ hy)
    have hx := h x (.head _)
    cases x with
    | disconnect => exact ih
    | send p => cases p <;> first | exact ih | cases hx

/-- What the updating goroutine has still to send to a client. -/
def BUpdater.owed (i : Nat) (n : U32) : BUpdater → List U32
  | .idle => []
  | .added => [n]
  | .counted m => [m]
  | .sending m rest => if i ∈ rest then [m] else []

/-- No client is in a list twice, and answers have no notifications. -/
structure BTidy (s : BSys) : Prop where
  nodup : s.clients.Nodup
  known : ∀ i ∈ s.clients, s.conn i ≠ none
  rest : ∀ n rest, s.updater = .sending n rest → rest.Nodup ∧ ∀ i ∈ rest, s.conn i ≠ none
  plain : ∀ i k es, s.conn i = some k → k.reader = .answering es → ∀ e ∈ es, isNotify e = false

theorem BTidy.put {s : BSys} (inv : BTidy s) {i : Nat} {k k' : BConn} {e : List Effect} (hk : s.conn i = some k) (h : ∀ es, k'.reader = .answering es → ∀ e ∈ es, isNotify e = false) : BTidy (s.put i k' e) := by
  have hc : ∀ j, s.conn j ≠ none → (s.put i k' e).conn j ≠ none := fun j hj => by
    show (if j = i then some k' else s.conn j) ≠ none
    split
    · exact fun h => nomatch h
    · exact hj
  refine ⟨?_, fun j hj => hc j (inv.known j ?_), fun n rest hu => ⟨(inv.rest n rest hu).1, fun j hj => hc j ((inv.rest n rest hu).2 j hj)⟩, fun j kj es hj hr => ?_⟩
  · show (if _ then _ else _ : List Nat).Nodup
    split
    · exact inv.nodup.filter _
    · exact inv.nodup
  · unfold BSys.put at hj
    split at hj
    · exact (List.mem_filter.1 hj).1
    · exact hj
  · have h2 : (if j = i then some k' else s.conn j) = some kj := hj
    split at h2
    · cases h2; exact h es hr
    · exact inv.plain j kj es h2 hr

theorem BTidy.step {srv : Server} {s t : BSys} (inv : BTidy s) (h : BStep srv s t) : BTidy t := by
  cases h with
  | @connect i c hi hc =>
    have hc : ∀ j, s.conn j ≠ none → (if j = i then some ⟨c, .idle, []⟩ else s.conn j) ≠ none := fun j hj => by
      split
      · exact fun h => nomatch h
      · exact hj
    refine ⟨?_, fun j hj => ?_, fun n rest hu => ⟨(inv.rest n rest hu).1, fun j hj => hc j ((inv.rest n rest hu).2 j hj)⟩, fun j kj es hj hr => ?_⟩
    · rw [List.nodup_append]
      exact ⟨inv.nodup, by simp, fun a ha b hb => by rw [List.mem_singleton] at hb; rintro rfl; subst hb; exact inv.known _ ha hi⟩
    · rcases List.mem_append.1 hj with hj | hj
      · exact hc j (inv.known j hj)
      · rw [List.mem_singleton] at hj
        show (if j = i then _ else _) ≠ _
        rw [if_pos hj]
        exact fun h => nomatch h
    · have h2 : (if j = i then some ⟨c, .idle, []⟩ else s.conn j) = some kj := hj
      split at h2
      · cases h2; cases hr
      · exact inv.plain j kj es h2 hr
  | @recv i k p c e hk hr hc hx => exact inv.put hk fun es h => nomatch h
  | @handle i k p c e hk hr hx => exact inv.put hk fun es h => nomatch h
  | @count i k p hk hr => exact inv.put hk fun es h => nomatch h
  | @answer i k p st es hk hr hx => exact inv.put hk fun es' h => by cases h; exact passSimpleHandler_notify hx
  | @emit i k e es hk hr => exact inv.put hk fun es' h => by cases h; exact fun x hx => inv.plain i k _ hk hr x (.tail _ hx)
  | @finish i k hk hr => exact inv.put hk fun es h => nomatch h
  | @lost i k hk hr => exact inv.put hk fun es h => nomatch h
  | @publish new st hu hx => exact ⟨inv.nodup, inv.known, fun _ _ h => (nomatch h), inv.plain⟩
  | @silent new st hu hx => exact ⟨inv.nodup, inv.known, inv.rest, inv.plain⟩
  | serial hu => exact ⟨inv.nodup, inv.known, fun _ _ h => (nomatch h), inv.plain⟩
  | @list n hu => exact ⟨inv.nodup, inv.known, fun _ _ h => by cases h; exact ⟨inv.nodup, inv.known⟩, inv.plain⟩
  | @post n i rest k sid hu hk hx =>
    have h1 : BTidy (s.put i (k.act k.client k.reader [k.client.notify sid n]) []) := inv.put hk fun es h => inv.plain i k es hk h
    have h2 := h1.rest _ _ hu
    exact ⟨h1.nodup, h1.known, fun _ _ h => by cases h; exact ⟨(List.nodup_cons.1 h2.1).2, fun j hj => h2.2 j (.tail _ hj)⟩, h1.plain⟩
  | @done n hu => exact ⟨inv.nodup, inv.known, fun _ _ h => (nomatch h), inv.plain⟩

theorem BTidy.steps {srv : Server} {s t : BSys} (inv : BTidy s) (h : BSteps srv s t) : BTidy t := by
  induction h with
  | refl => exact inv
  | step _ hs ih => exact ih.step hs

theorem BTidy.start (st : Store) : BTidy (BSys.start st) := ⟨.nil, fun _ h => (nomatch h), fun _ _ h => (nomatch h), fun _ _ _ h => (nomatch h)⟩

/-- What client `i` was told and what it will be told: `base`, and then what was published since. -/
def BTold (i : Nat) (base : List U32) (n0 : Nat) (s : BSys) : Prop :=
  n0 ≤ s.published.length ∧ s.conn i ≠ none ∧ (i ∈ s.clients → ∀ k, s.conn i = some k → notified k.log ++ s.updater.owed i s.store.serial = base ++ s.published.drop n0)

theorem BTold.put {i : Nat} {base : List U32} {n0 : Nat} {s : BSys} (h : BTold i base n0 s) {j : Nat} {k k' : BConn} {e : List Effect} (hk : s.conn j = some k) (hn : notified k'.log = notified k.log) : BTold i base n0 (s.put j k' e) := by
  refine ⟨h.1, ?_, fun hi ki hki => ?_⟩
  · show (if i = j then some k' else s.conn i) ≠ none
    split
    · exact fun h => nomatch h
    · exact h.2.1
  · have hi' : i ∈ s.clients := by
      unfold BSys.put at hi
      split at hi
      · exact (List.mem_filter.1 hi).1
      · exact hi
    have h2 : (if i = j then some k' else s.conn i) = some ki := hki
    by_cases he : i = j
    · rw [if_pos he] at h2
      cases h2
      rw [hn]
      exact h.2.2 hi' k (he ▸ hk)
    · rw [if_neg he] at h2
      exact h.2.2 hi' ki h2

theorem notified_act (k : BConn) (c : Client) (r : BReader) {e : List Effect} (h : ∀ x ∈ e, isNotify x = false) : notified (k.act c r e).log = notified k.log := by
  show notified (k.log ++ e.map .eff) = _
  rw [notified_append, notified_eff h, List.append_nil]

theorem BTold.step {srv : Server} {i : Nat} {base : List U32} {n0 : Nat} {s t : BSys} (inv : BTold i base n0 s) (tidy : BTidy s) (fresh : BInv s) (h : BStep srv s t) : BTold i base n0 t := by
  cases h with
  | @connect j c hj hc =>
    have hne : i ≠ j := fun h => inv.2.1 (h ▸ hj)
    refine ⟨inv.1, ?_, fun hi ki hki => ?_⟩
    · show (if i = j then _ else s.conn i) ≠ none
      rw [if_neg hne]; exact inv.2.1
    · have h2 : (if i = j then _ else s.conn i) = some ki := hki
      rw [if_neg hne] at h2
      refine inv.2.2 ?_ ki h2
      rcases List.mem_append.1 hi with hi | hi
      · exact hi
      · exact absurd (List.mem_singleton.1 hi) hne
  | @recv j k p c e hk hr hc hx =>
    have hn : ∀ x ∈ e, isNotify x = false := by
      split at hx
      · exact checkVersion_notify hx
      · cases hx; intro x hx; cases hx
    refine inv.put hk ?_
    show notified (k.log ++ .asked p :: e.map .eff) = _
    rw [notified_append]
    show notified k.log ++ notified (e.map .eff) = _
    rw [notified_eff hn, List.append_nil]
  | @handle j k p c e hk hr hx => exact inv.put hk (notified_act _ _ _ (handlePDU_notify hx))
  | @count j k p hk hr => exact inv.put hk (notified_act _ _ _ fun _ h => nomatch h)
  | @answer j k p st es hk hr hx => exact inv.put hk (notified_act _ _ _ fun _ h => nomatch h)
  | @emit j k e es hk hr => exact inv.put hk (notified_act _ _ _ fun x hx => tidy.plain j k _ hk hr x (by rw [List.mem_singleton] at hx; exact hx ▸ .head _))
  | @finish j k hk hr => exact inv.put hk (notified_act _ _ _ fun _ h => nomatch h)
  | @lost j k hk hr => exact inv.put hk (notified_act _ _ _ fun x hx => by rw [List.mem_singleton] at hx; subst hx; rfl)
  | @publish new st hu hx =>
    refine ⟨?_, inv.2.1, fun hi ki hki => ?_⟩
    · rw [List.length_append]; exact Nat.le_add_right_of_le inv.1
    · have h2 := inv.2.2 hi ki hki
      rw [hu] at h2
      rw [List.drop_append_of_le_length inv.1, ← List.append_assoc, ← h2]
      show _ ++ [st.serial] = notified ki.log ++ [] ++ [st.serial]
      rw [List.append_nil]
  | @silent new st hu hx =>
    refine ⟨inv.1, inv.2.1, fun hi ki hki => ?_⟩
    have h2 := inv.2.2 hi ki hki
    rw [hu] at h2
    show _ ++ s.updater.owed i st.serial = _
    rw [hu]
    exact h2
  | serial hu =>
    refine ⟨inv.1, inv.2.1, fun hi ki hki => ?_⟩
    have h2 := inv.2.2 hi ki hki
    rw [hu] at h2
    exact h2
  | @list n hu =>
    refine ⟨inv.1, inv.2.1, fun hi ki hki => ?_⟩
    have h2 := inv.2.2 hi ki hki
    rw [hu] at h2
    show _ ++ (if i ∈ s.clients then [n] else []) = _
    rw [if_pos hi]
    exact h2
  | @post n j rest k sid hu hk hx =>
    have hr := (List.nodup_cons.1 (tidy.rest _ _ hu).1).1
    refine ⟨inv.1, ?_, fun hi ki hki => ?_⟩
    · show (if i = j then _ else s.conn i) ≠ none
      split
      · exact fun h => nomatch h
      · exact inv.2.1
    · have hi' : i ∈ s.clients := by
        have : i ∈ (if Effect.disconnect ∈ ([] : List Effect) then s.clients.filter (· ≠ j) else s.clients) := hi
        rwa [if_neg (by simp)] at this
      have h2 : (if i = j then some (k.act k.client k.reader [k.client.notify sid n]) else s.conn i) = some ki := hki
      show _ ++ (if i ∈ rest then [n] else []) = _
      by_cases he : i = j
      · subst he
        rw [if_pos rfl] at h2
        cases h2
        have h3 := inv.2.2 hi' k hk
        rw [hu, show BUpdater.owed i s.store.serial (.sending n (i :: rest)) = [n] from if_pos (.head _)] at h3
        rw [if_neg hr, List.append_nil]
        show notified (k.log ++ [.eff (.send (.serialNotify k.client.version sid n))]) = _
        rw [notified_append]
        exact h3
      · rw [if_neg he] at h2
        have h3 := inv.2.2 hi' ki h2
        rw [hu] at h3
        have h4 : BUpdater.owed i s.store.serial (.sending n (j :: rest)) = if i ∈ rest then [n] else [] := by
          show (if i ∈ j :: rest then [n] else []) = _
          simp only [List.mem_cons, he, false_or]
        rw [h4] at h3
        exact h3
  | @done n hu =>
    refine ⟨inv.1, inv.2.1, fun hi ki hki => ?_⟩
    have h2 := inv.2.2 hi ki hki
    rw [hu] at h2
    exact h2

theorem BSteps.trans {srv : Server} {s t u : BSys} (h : BSteps srv s t) (h' : BSteps srv t u) : BSteps srv s u := by
  induction h' with
  | refl => exact h
  | step _ hs ih => exact .step ih hs

/-- **C126.** A router that stays connected is sent one Serial Notify for each update in the meantime, in order, and no other. -/
theorem C126_each (srv : Server) (st : Store) (s t : BSys) (hs : BSteps srv (.start st) s) (ht : BSteps srv s t) (hsu : s.updater = .idle) (htu : t.updater = .idle) (i : Nat) (hi : i ∈ s.clients) (hi' : i ∈ t.clients) (k k' : BConn)
    (hk : s.conn i = some k) (hk' : t.conn i = some k') : notified k'.log = notified k.log ++ t.published.drop s.published.length := by
  have h0 : BTold i (notified k.log) s.published.length s := by
    refine ⟨Nat.le_refl _, by rw [hk]; exact fun h => (nomatch h), fun _ k2 hk2 => ?_⟩
    rw [hk] at hk2
    cases hk2
    rw [hsu, List.drop_length]
    rfl
  have h1 : BTold i (notified k.log) s.published.length t := by
    have hb : ∀ u, BSteps srv s u → BTold i (notified k.log) s.published.length u := fun u hu => by
      induction hu with
      | refl => exact h0
      | step h hs' ih => exact ih.step ((BTidy.start st).steps (hs.trans h)) ((BInv.start st).steps (hs.trans h)) hs'
    exact hb t ht
  have := h1.2.2 hi' k' hk'
  rw [htu] at this
  rw [← this]
  exact (List.append_nil _).symm

/-! ## A Serial Notify can overtake an answer -/

/-- What happens at a connection whose answer is overtaken. -/
def blog : List BMsg := [.asked (.resetQuery 1), .eff (.send (.serialNotify 1 107 1)), .eff (.send (.cacheResponse 1 107)), .eff (.send (.ipv4Prefix 1 1 ⟨.v4 0x0a000000#32, 9⟩ 8 1)), .eff (.send (.endOfData 1 107 0 3600 600 7200))]

/-- A router asks; after the data for the answer are read an update adds a VRP and notifies the router; then the answer, with the old serial and the old data. -/
theorem bovertaken : ∃ s k, BSteps (newServer ncfg 7) (.start nstore) s ∧ s.updater = .idle ∧ s.loud = true ∧ s.clients = [0] ∧ s.conn 0 = some k ∧ k.reader = .idle ∧ s.store.serial = 1 ∧ s.published = [1] ∧
    k.log = blog := by
  refine ⟨_, ⟨(newServer ncfg 7).acceptClientTCP.setVersion 1, .idle, blog⟩, .step (.step (.step (.step (.step (.step (.step (.step (.step (.step (.step (.step (.step (.step (.refl _) (.connect 0 rfl (.inl rfl))) (.recv (i := 0) (.resetQuery 1) rfl rfl rfl rfl)) (.handle (i := 0) rfl rfl rfl)) (.count (i := 0) rfl rfl)) (.answer (i := 0) (st := nstore) rfl rfl rfl))
    (.publish [.vrp ⟨⟨.v4 0x0a000000#32, 9⟩, 1, 8, 0⟩, .vrp ⟨⟨.v4 0x0b000000#32, 9⟩, 1, 8, 0⟩] rfl rfl)) (.serial rfl)) (.list rfl)) (.post (i := 0) (sid := 107) rfl rfl rfl)) (.done rfl))
    (.emit (i := 0) rfl rfl)) (.emit (i := 0) rfl rfl)) (.emit (i := 0) rfl rfl)) (.finish (i := 0) rfl rfl), ?_⟩
  exact ⟨rfl, rfl, rfl, rfl, rfl, rfl, rfl, rfl⟩

/-- **C126, what fails.** The Serial Notify need not come after the answer that it makes outdated: a router that heeds only what comes when it is not waiting for an answer does not learn of the update before its refresh interval is over. -/
theorem C126_overtaken_false : ¬ ∀ (srv : Server) (st : Store) (s : BSys), BSteps srv (.start st) s → s.updater = .idle → s.loud = true → ∀ i ∈ s.clients, ∀ k, s.conn i = some k →
    ∀ A l v x m a b c, k.log = A ++ .eff (.send (.endOfData v x m a b c)) :: l → m ≠ s.store.serial → Told s.store.serial l := by
  intro h
  obtain ⟨s, k, hs, hu, hl, hc, hk, -, hn, -, hlog⟩ := bovertaken
  obtain ⟨_, _, h⟩ := h _ _ s hs hu hl 0 (by rw [hc]; exact .head _) k hk [_, _, _, _] [] 1 107 0 3600 600 7200 hlog (by rw [hn]; decide)
  cases h

/-- The hypotheses of `C126_told`, and of `C126_each` from the moment of the connection on. -/
example : ∃ s k l, BSteps (newServer ncfg 7) (.start nstore) s ∧ s.updater = .idle ∧ s.loud = true ∧ 0 ∈ s.clients ∧ s.conn 0 = some k ∧ k.log = [] ++ .asked (.resetQuery 1) :: l ∧ EndedWith 0 l ∧ 0 ≠ s.store.serial ∧
    notified k.log = [1] ∧ s.published = [1] := by
  obtain ⟨s, k, hs, hu, hl, hc, hk, -, hn, hp, hlog⟩ := bovertaken
  exact ⟨s, k, _, hs, hu, hl, by rw [hc]; exact .head _, hk, hlog, ⟨1, 107, 3600, 600, 7200, by simp⟩, by rw [hn]; decide, by rw [hlog]; rfl, hp⟩

/-- The hypotheses of `C126_settled`: the router connects after the update. -/
example : ∃ s k l, BSteps (newServer ncfg 7) (.start (.init 3)) s ∧ s.updater = .idle ∧ s.loud = true ∧ s.clients = [4] ∧ s.conn 4 = some k ∧ k.log = [] ++ .asked (.resetQuery 1) :: l ∧ EndedWith 0 l ∧ notified l = [] := by
  refine ⟨_, ⟨(newServer ncfg 7).acceptClientTCP.setVersion 1, .idle, [.asked (.resetQuery 1), .eff (.send (.cacheResponse 1 107)), .eff (.send (.ipv4Prefix 1 1 ⟨.v4 0x0a000000#32, 9⟩ 8 1)), .eff (.send (.endOfData 1 107 0 3600 600 7200))]⟩, _,
    .step (.step (.step (.step (.step (.step (.step (.step (.step (.step (.step (.step (.step (.refl _)
    (.publish [.vrp ⟨⟨.v4 0x0a000000#32, 9⟩, 1, 8, 0⟩] rfl rfl)) (.serial rfl)) (.list rfl)) (.done rfl)) (.connect 4 rfl (.inl rfl))) (.recv (i := 4) (.resetQuery 1) rfl rfl rfl rfl)) (.handle (i := 4) rfl rfl rfl)) (.count (i := 4) rfl rfl))
    (.answer (i := 4) (st := nstore) rfl rfl rfl)) (.emit (i := 4) rfl rfl)) (.emit (i := 4) rfl rfl)) (.emit (i := 4) rfl rfl)) (.finish (i := 4) rfl rfl), rfl, rfl, rfl, rfl, rfl, ⟨1, 107, 3600, 600, 7200, .tail _ (.tail _ (.head _))⟩, rfl⟩

end StayRTR
