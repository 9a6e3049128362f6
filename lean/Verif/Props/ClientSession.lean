import Verif.Model.ClientSession
import Verif.Proofs.Codec
import Verif.Props.Session

/-!
# The client side of a session: C69, C99
-/

namespace StayRTR

open Spec

namespace Spec

/-- The PDUs a handler gets to see: up to the one at which it disconnects. -/
def readBy {σ : Type} (h : CHandler σ) (s : σ) : List Pdu → List Pdu
  | [] => []
  | p :: ps => p :: if .disconnect ∈ (h s p).2 then [] else readBy h (h s p).1 ps

end Spec

theorem act_session (c : CSession) (l : List CAct) : (c.act l).1 = ⟨c.version, c.connected && !decide (.disconnect ∈ l)⟩ := by
  induction l generalizing c with
  | nil => simp [CSession.act]
  | cons a l ih =>
    cases a with
    | send p => simp only [CSession.act]; rw [ih]; simp
    | disconnect => simp only [CSession.act]; rw [ih]; simp

theorem act_out (c : CSession) (l : List CAct) : (c.act l).2 = (l.filterMap fun | .send q => some q | .disconnect => none).map (Pdu.setVersion c.version) := by
  induction l generalizing c with
  | nil => rfl
  | cons a l ih =>
    cases a with
    | send p => simp only [CSession.act, List.filterMap_cons, List.map_cons]; rw [ih]
    | disconnect => simp only [CSession.act, List.filterMap_cons]; rw [ih]

theorem loop_closed {σ : Type} (h : CHandler σ) (v : U8) (s : σ) (ps : List Pdu) : CSession.loop h ⟨v, false⟩ s ps = ⟨⟨v, false⟩, s, [], false⟩ := by cases ps <;> rfl

/-- One PDU lowers the version from 1 to 0 or leaves it. -/
theorem downgrade_version (c : CSession) (p : Pdu) : (c.downgrade p).version = if c.version = 1 ∧ p.getVersion = 0 then 0 else c.version := by
  unfold CSession.downgrade
  split <;> rfl

/-- **C69.** After any input the version of a session is 0 exactly if it was 0 from the start, or 1 and a PDU of version 0 was read; otherwise it is unchanged. -/
theorem C69_version {σ : Type} (h : CHandler σ) (v : U8) (s : σ) (ps : List Pdu) :
    (CSession.loop h ⟨v, true⟩ s ps).session.version = if v = 1 ∧ ∃ p ∈ readBy h s ps, p.getVersion = 0 then 0 else v := by
  induction ps generalizing v s with
  | nil => simp [CSession.loop, readBy]
  | cons p ps ih =>
    simp only [CSession.loop, if_true, CSession.onPdu, act_session, readBy]
    rw [downgrade_version]
    have hconn : (CSession.downgrade ⟨v, true⟩ p).connected = true := by unfold CSession.downgrade; split <;> rfl
    rw [hconn, Bool.true_and]
    simp only
    by_cases hd : CAct.disconnect ∈ (h s p).2
    · simp only [hd, decide_true, Bool.not_true, if_true]
      rw [loop_closed]
      simp
    · simp only [hd, decide_false, Bool.not_false, if_false]
      rw [ih]
      by_cases h1 : v = 1
      · subst h1
        by_cases h0 : p.getVersion = 0
        · simp [h0]
        · have h0' : ¬ p.getVersion = 0#8 := h0
          simp [h0']
      · have h1' : ¬ v = 1#8 := h1
        simp [h1']

/-- **C69.** It never increases. -/
theorem C69_never_up {σ : Type} (h : CHandler σ) (c : CSession) (s : σ) (ps : List Pdu) : (CSession.loop h c s ps).session.version.toNat ≤ c.version.toNat := by
  obtain ⟨v, cn⟩ := c
  cases cn with
  | false => rw [loop_closed]; exact Nat.le_refl _
  | true =>
    rw [C69_version]
    split
    · exact Nat.zero_le _
    · exact Nat.le_refl _

theorem getVersion_setVersion (p : Pdu) (v : U8) : (p.setVersion v).getVersion = v := by cases p <;> rfl

/-- **C69.** What is sent in reply to a PDU carries the version the session has after reading that PDU. -/
theorem C69_sent {σ : Type} (h : CHandler σ) (c : CSession) (s : σ) (p : Pdu) : ∀ q ∈ (CSession.onPdu h c s p).2.2, q.getVersion = (CSession.onPdu h c s p).1.version := by
  intro q hq
  simp only [CSession.onPdu, act_out, act_session] at hq ⊢
  obtain ⟨q', -, rfl⟩ := List.mem_map.mp hq
  exact getVersion_setVersion _ _

/-- A session of version 1 that gets PDUs of versions 1, 0 and 1 ends at version 0, if its handler goes on; if it stops at the first, at version 1. -/
example : (CSession.loop (fun (n : Nat) _ => (n + 1, [])) ⟨1, true⟩ 0 [.cacheReset 1, .cacheReset 0, .cacheReset 1]).session.version = 0 ∧
    (CSession.loop (fun (n : Nat) _ => (n + 1, [.disconnect])) ⟨1, true⟩ 0 [.cacheReset 1, .cacheReset 0]).session.version = 1 := by decide

/-! ## C99: the first Serial Notify -/

/-- **C99** (partial: the connection has negotiated version 1). A Serial Notify from a connection of version 1 leaves the client's session as it is. -/
theorem C99_negotiated_partial (c : Client) (hv : c.version = 1) (sid : U16) (n : U32) (d : CSession) (p : Pdu) (hp : c.notify sid n = .send p) : d.downgrade p = d := by
  unfold Client.notify Client.sendPDU at hp
  cases hp
  unfold CSession.downgrade
  rw [getVersion_setVersion, hv, if_neg (fun h => absurd h.2 (by decide))]

/-- **C99.** Without that it fails: a server whose version is 1 sends a Serial Notify of version 0 to a router that has connected and not yet asked for anything. The session of a client that supports version 1 is then of version 0
for good, and it gets no router keys. -/
theorem C99_early_notify_false (cfg : ServerConfig) (hcfg : cfg.enforceVersion = false) (sid : U16) (n : U32) :
    ∃ p, (newServer cfg sid).acceptClientTCP.notify sid n = .send p ∧ (CSession.start 1).downgrade p = ⟨0, true⟩ ∧
      ∀ (σ : Type) (h : CHandler σ) (s : σ) (ps : List Pdu), (CSession.loop h ((CSession.start 1).downgrade p) s ps).session.version = 0 := by
  refine ⟨.serialNotify 0 sid n, ?_, rfl, fun σ h s ps => ?_⟩
  · unfold Client.notify Client.sendPDU
    have : (newServer cfg sid).acceptClientTCP.version = 0 := by
      simp only [Server.acceptClientTCP, newServer, hcfg, Client.fresh]
      cases cfg.disableBGPSec <;> rfl
    rw [this]
    rfl
  · have h0 := C69_version h 0 s ps
    rw [if_neg (by rintro ⟨h, -⟩; cases h)] at h0
    exact h0

end StayRTR
