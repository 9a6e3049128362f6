import Verif.Proofs.Auth

/-!
# C58, C59, C87-C89: SSH authentication
-/

namespace StayRTR

open Spec

/-- Bytes of a text, for the examples. -/
def asBytes (s : String) : Bytes := s.toList.map fun c => BitVec.ofNat 8 c.toNat

/-- Flags of the examples: both methods, one password. -/
def exSsh : SshFlags := ⟨true, asBytes "rpki", asBytes "secret", [], true, false, [], asBytes "ssh-x AAAAAg== me\n# ssh-x AAAAAw\n"⟩

/-- What the configuration consists of. -/
theorem config_eq {readFile : Bytes → Option Bytes} {f : SshFlags} {a : SshAuth} (h : sshConfig readFile f = .ok a) :
    a.password = (if f.enablePassword then some (passwordCallback f) else none) ∧
    a.publicKey = (if f.enableKey then some (keyCallback f (splitLines (if f.keysFile = [] then f.envKeys else (readFile f.keysFile).getD []))) else none) ∧
    a.noClientAuth = !(f.enableKey || f.enablePassword) := by
  unfold sshConfig at h
  by_cases hk : f.enableKey = true
  · by_cases hf : f.keysFile = []
    · simp only [hk, hf, if_true] at h
      cases h
      simp [hk, hf]
    · cases hr : readFile f.keysFile with
      | none => simp [hk, hf, hr] at h
      | some t =>
        simp only [hk, hf, hr, if_true, if_false] at h
        cases h
        simp [hk, hf]
  · simp only [hk] at h
    cases h
    simp [hk]

/-! ## C58: passwords -/

/-- With password authentication enabled a password login is admitted exactly for the configured user with the password from the flag, or with the one from the environment if the flag is blank. -/
theorem C58_exact {readFile : Bytes → Option Bytes} {f : SshFlags} {a : SshAuth} (h : sshConfig readFile f = .ok a) (user supplied : Bytes) :
    a.admits (.password user supplied) = true ↔ f.enablePassword = true ∧ user = f.user ∧ ((f.password ≠ [] ∧ supplied = f.password) ∨ (f.password = [] ∧ supplied = f.envPassword)) := by
  have hp := (config_eq h).1
  unfold SshAuth.admits
  rw [hp]
  cases he : f.enablePassword with
  | false => simp
  | true =>
    simp only [if_true, true_and, passwordCallback]
    by_cases hb : f.password = []
    · simp [hb]
    · simp [hb]

example : ∃ a, sshConfig (fun _ => none) exSsh = .ok a ∧ a.admits (.password (asBytes "rpki") (asBytes "secret")) = true ∧ a.admits (.password (asBytes "rpki") (asBytes "secret ")) = false ∧
    a.admits (.password (asBytes "root") (asBytes "secret")) = false := ⟨_, rfl, by decide +kernel, by decide +kernel, by decide +kernel⟩

/-! ## C59: keys -/

theorem config_key {readFile : Bytes → Option Bytes} {f : SshFlags} {a : SshAuth} (h : sshConfig readFile f = .ok a) :
    a.publicKey = if f.enableKey then some (keyCallback f (splitLines (if f.keysFile = [] then f.envKeys else (readFile f.keysFile).getD []))) else none := (config_eq h).2.1

/-- The text with the authorized keys: the file, or the environment variable if no file is named. -/
def Spec.KeysText (readFile : Bytes → Option Bytes) (f : SshFlags) (text : Bytes) : Prop := (f.keysFile = [] ∧ text = f.envKeys) ∨ (f.keysFile ≠ [] ∧ readFile f.keysFile = some text)

/-- A key is admitted only if some line of the text starts with its type, a space and base64 text whose bits start with the bits of the key; and whatever proper key that line lists is that key. The client has proved possession. -/
theorem C59_only_listed {readFile : Bytes → Option Bytes} {f : SshFlags} {a : SshAuth} (h : sshConfig readFile f = .ok a) (hb : f.bypass = false) {text : Bytes} (ht : KeysText readFile f text) {ls : List Bytes} (hls : Lines text ls)
    {layout : Bytes → List KeyField} {user : Bytes} {k : SshKey} {signed : Bool} (hk : ProperKey layout k) (ha : a.admits (.publicKey user k signed) = true) :
    signed = true ∧ f.enableKey = true ∧ ∃ line ∈ ls, (∃ t, line = k.type ++ 32 :: t ∧ bitsOf k.blob <+: textBits t) ∧ ∀ k', ProperKey layout k' → LineLists line k' → k' = k := by
  unfold SshAuth.admits at ha
  rw [config_key h] at ha
  have htext : (if f.keysFile = [] then f.envKeys else (readFile f.keysFile).getD []) = text := by
    rcases ht with ⟨h1, h2⟩ | ⟨h1, h2⟩
    · rw [if_pos h1, h2]
    · rw [if_neg h1, h2]; rfl
  rw [htext, splitLines_lines hls] at ha
  cases he : f.enableKey with
  | false => rw [he] at ha; simp at ha
  | true =>
    rw [he] at ha
    simp only [if_true, keyCallback, hb, Bool.not_false, Bool.and_eq_true, keyListed, List.any_eq_true, bne_iff_ne] at ha
    obtain ⟨⟨line, hm, _, hp⟩, hs⟩ := ha
    rw [List.isPrefixOf_iff_prefix] at hp
    refine ⟨hs, rfl, line, hm, ?_, fun k' hk' hl => (keyLine_sound hk hk' hl hp).symm⟩
    obtain ⟨r, hr⟩ := hp
    refine ⟨rawBase64 k.blob ++ r, by rw [← hr, keyLine]; simp, ?_⟩
    obtain ⟨n, _, hn⟩ := textBits_raw k.blob r
    rw [hn]
    exact List.prefix_append _ _

/-- Every key listed, with or without padding and whatever follows it on the line, is admitted to a client that proves possession. -/
theorem C59_every_listed {readFile : Bytes → Option Bytes} {f : SshFlags} {a : SshAuth} (h : sshConfig readFile f = .ok a) (he : f.enableKey = true) {text : Bytes} (ht : KeysText readFile f text) {ls : List Bytes} (hls : Lines text ls)
    (user : Bytes) {k : SshKey} {line : Bytes} (hm : line ∈ ls) (hl : LineListsExactly line k) : a.admits (.publicKey user k true) = true := by
  unfold SshAuth.admits
  rw [config_key h]
  have htext : (if f.keysFile = [] then f.envKeys else (readFile f.keysFile).getD []) = text := by
    rcases ht with ⟨h1, h2⟩ | ⟨h1, h2⟩
    · rw [if_pos h1, h2]
    · rw [if_neg h1, h2]; rfl
  rw [htext, splitLines_lines hls, he]
  simp only [if_true, keyCallback, Bool.and_true]
  cases hb : f.bypass with
  | true => rfl
  | false =>
    simp only [Bool.not_false, if_true, keyListed, List.any_eq_true, Bool.and_eq_true, bne_iff_ne]
    obtain ⟨t, rfl, ht⟩ := hl
    refine ⟨_, hm, by simp, ?_⟩
    rw [List.isPrefixOf_iff_prefix]
    obtain ⟨r, hr⟩ := raw_prefix ht
    exact ⟨r, by rw [keyLine, ← hr]; simp⟩

/-- For a text in which every line lists a key, is empty, or is a comment, the keys admitted are exactly those listed. -/
theorem C59_exact {readFile : Bytes → Option Bytes} {f : SshFlags} {a : SshAuth} (h : sshConfig readFile f = .ok a) (he : f.enableKey = true) (hb : f.bypass = false) {text : Bytes} (ht : KeysText readFile f text) {ls : List Bytes}
    (hls : Lines text ls) {layout : Bytes → List KeyField} (hfile : ∀ line ∈ ls, line = [] ∨ line.head? = some 35 ∨ ∃ k', ProperKey layout k' ∧ LineListsExactly line k')
    (user : Bytes) {k : SshKey} (hk : ProperKey layout k) (hne : k.type ≠ [] ∧ k.type.head? ≠ some 35) :
    a.admits (.publicKey user k true) = true ↔ ∃ line ∈ ls, LineListsExactly line k := by
  constructor
  · intro ha
    obtain ⟨_, _, line, hm, ⟨t, rfl, _⟩, hu⟩ := C59_only_listed h hb ht hls hk ha
    refine ⟨_, hm, ?_⟩
    rcases hfile _ hm with hf | hf | ⟨k', hk', hl⟩
    · simp at hf
    · exfalso
      cases hty : k.type with
      | nil => exact hne.1 hty
      | cons c l =>
        rw [hty] at hf
        apply hne.2
        rw [hty]
        simpa using hf
    · have hl' := hl
      obtain ⟨t', h1, n, hn, h2⟩ := hl'
      have := hu k' hk' ⟨t', h1, List.replicate n false, by simpa using hn, h2⟩
      rw [this] at hl
      exact hl
  · rintro ⟨line, hm, hl⟩
    exact C59_every_listed h he ht hls user hm hl

/-- In the example file the key with the bytes 0 0 0 2 is listed, the one in the comment is not. -/
example : ∃ a, sshConfig (fun _ => none) exSsh = .ok a ∧ a.admits (.publicKey (asBytes "any") ⟨asBytes "ssh-x", [0, 0, 0, 2]⟩ true) = true ∧ a.admits (.publicKey (asBytes "any") ⟨asBytes "ssh-x", [0, 0, 0, 3]⟩ true) = false ∧
    a.admits (.publicKey (asBytes "any") ⟨asBytes "ssh-x", [0, 0, 0, 2]⟩ false) = false := ⟨_, rfl, by decide +kernel, by decide +kernel, by decide +kernel⟩

example : LineListsExactly (asBytes "ssh-x AAAAAg== me") ⟨asBytes "ssh-x", [0, 0, 0, 2]⟩ ∧ ProperKey (fun _ => [.fixed 4]) ⟨asBytes "ssh-x", [0, 0, 0, 2]⟩ :=
  ⟨⟨asBytes "AAAAAg== me", by decide, 4, by omega, by decide +kernel⟩, by decide, [0, 0, 0, 2], [], rfl, rfl, rfl⟩

example : Lines exSsh.envKeys [asBytes "ssh-x AAAAAg== me", asBytes "# ssh-x AAAAAw", []] := ⟨by simp, by decide +kernel, by decide +kernel⟩

/-! ## C87: no admission without authentication -/

/-- The "none" method is admitted exactly if neither passwords nor keys are enabled. So with SSH alone, without either flag, everybody is. -/
theorem C87_none {readFile : Bytes → Option Bytes} {f : SshFlags} {a : SshAuth} (h : sshConfig readFile f = .ok a) (user : Bytes) :
    a.admits (.none user) = true ↔ f.enablePassword = false ∧ f.enableKey = false := by
  have := (config_eq h).2.2
  unfold SshAuth.admits
  rw [this]
  cases f.enableKey <;> cases f.enablePassword <;> simp

/-- A method that is not enabled admits nobody. -/
theorem C87_disabled {readFile : Bytes → Option Bytes} {f : SshFlags} {a : SshAuth} (h : sshConfig readFile f = .ok a) :
    (f.enablePassword = false → ∀ u p, a.admits (.password u p) = false) ∧ (f.enableKey = false → ∀ u k s, a.admits (.publicKey u k s) = false) := by
  constructor
  · intro hf u p
    rw [← Bool.not_eq_true, C58_exact h u p, hf]
    simp
  · intro hf u k s
    unfold SshAuth.admits
    rw [config_key h, hf]
    rfl

/-- Nobody gets in without possession of an accepted key, unless by password or because nothing is enabled. -/
theorem C87_possession {readFile : Bytes → Option Bytes} {f : SshFlags} {a : SshAuth} (h : sshConfig readFile f = .ok a) (user : Bytes) (k : SshKey) : a.admits (.publicKey user k false) = false := by
  unfold SshAuth.admits
  rw [config_key h]
  cases f.enableKey <;> simp

/-! ## C88: a password that was never set -/

/-- With password authentication enabled and no password given anywhere, the configured user gets in with the empty password. -/
theorem C88_blank_false : ∃ (f : SshFlags) (a : SshAuth), f.enablePassword = true ∧ f.password = [] ∧ f.envPassword = [] ∧ sshConfig (fun _ => none) f = .ok a ∧ a.admits (.password (asBytes "rpki") []) = true :=
  ⟨⟨true, asBytes "rpki", [], [], false, false, [], []⟩, _, rfl, rfl, rfl, rfl, by decide⟩

/-- With a password set in either place the empty one is refused. -/
theorem C88_set_partial {readFile : Bytes → Option Bytes} {f : SshFlags} {a : SshAuth} (h : sshConfig readFile f = .ok a) (hs : f.password ≠ [] ∨ f.envPassword ≠ []) (user : Bytes) : a.admits (.password user []) = false := by
  rw [← Bool.not_eq_true, C58_exact h user []]
  rintro ⟨_, _, ⟨h1, h2⟩ | ⟨h1, h2⟩⟩
  · exact h1 h2.symm
  · rcases hs with hs | hs
    · exact hs h1
    · exact hs h2.symm

/-- Without any key listed no key is admitted (nothing fails open). -/
theorem C88_no_keys {readFile : Bytes → Option Bytes} {f : SshFlags} {a : SshAuth} (h : sshConfig readFile f = .ok a) (hb : f.bypass = false) (ht : KeysText readFile f []) (user : Bytes) (k : SshKey) (signed : Bool) :
    a.admits (.publicKey user k signed) = false := by
  unfold SshAuth.admits
  rw [config_key h]
  have htext : (if f.keysFile = [] then f.envKeys else (readFile f.keysFile).getD []) = [] := by
    rcases ht with ⟨h1, h2⟩ | ⟨h1, h2⟩
    · rw [if_pos h1, ← h2]
    · rw [if_neg h1, h2]; rfl
  rw [htext]
  cases f.enableKey <;> simp [keyCallback, hb, splitLines, keyListed]

example : ∃ a, sshConfig (fun _ => none) exSsh = .ok a ∧ exSsh.password ≠ [] ∧ a.admits (.password (asBytes "rpki") []) = false :=
  ⟨_, rfl, by decide, C88_set_partial (f := exSsh) (readFile := fun _ => none) rfl (.inl (by decide)) _⟩

/-! ## C89: the configured user -/

/-- With a key any user name is admitted, whatever `-ssh.auth.user` says. -/
theorem C89_key_any_user_false {readFile : Bytes → Option Bytes} {f : SshFlags} {a : SshAuth} (h : sshConfig readFile f = .ok a) (u u' : Bytes) (k : SshKey) (s : Bool) : a.admits (.publicKey u k s) = a.admits (.publicKey u' k s) := by
  unfold SshAuth.admits
  rw [config_key h]
  cases f.enableKey <;> simp [keyCallback]

/-- With a password only the configured user is. -/
theorem C89_password_user_partial {readFile : Bytes → Option Bytes} {f : SshFlags} {a : SshAuth} (h : sshConfig readFile f = .ok a) (u p : Bytes) (ha : a.admits (.password u p) = true) : u = f.user := ((C58_exact h u p).mp ha).2.1

example : ∃ a, sshConfig (fun _ => none) exSsh = .ok a ∧ a.admits (.publicKey (asBytes "mallory") ⟨asBytes "ssh-x", [0, 0, 0, 2]⟩ true) = true := ⟨_, rfl, by decide +kernel⟩

end StayRTR
