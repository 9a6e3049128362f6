import Verif.Model.Go

/-!
# SSH authentication

`run`, cmd/stayrtr/stayrtr.go:885-971. Go strings are byte strings here. The SSH library (handshake, signature check, dispatch on the authentication method) is restated in `SshAuth.admits`.
-/

namespace StayRTR

/-- The flags and environment read for SSH, cmd/stayrtr/stayrtr.go:73-79, 903, 921. -/
structure SshFlags where
  enablePassword : Bool
  user : Bytes
  password : Bytes
  envPassword : Bytes
  enableKey : Bool
  bypass : Bool
  /-- Path of the authorized keys file; empty for none. -/
  keysFile : Bytes
  envKeys : Bytes

/-- `ssh.PublicKey`: `Type()` and `Marshal()` (cmd/stayrtr/stayrtr.go:932, 939). -/
structure SshKey where
  type : Bytes
  blob : Bytes
  deriving DecidableEq, Repr

/-- The base64 alphabet `encodeStd` of encoding/base64 (cmd/stayrtr/stayrtr.go:932): A-Z, a-z, 0-9, +, /. -/
def b64Char (s : BitVec 6) : U8 :=
  let n := s.toNat
  if n < 26 then BitVec.ofNat 8 (65 + n)
  else if n < 52 then BitVec.ofNat 8 (97 + (n - 26))
  else if n < 62 then BitVec.ofNat 8 (48 + (n - 52))
  else if n = 62 then 43 else 47

/-- `val := uint(src[si+0])<<16 | uint(src[si+1])<<8 | uint(src[si+2])` in encoding/base64 (cmd/stayrtr/stayrtr.go:932). -/
def b64Val (a b c : U8) : U32 := (a.setWidth 32 <<< 16) ||| (b.setWidth 32 <<< 8) ||| c.setWidth 32

/-- `val>>k & 0x3F` in encoding/base64 (cmd/stayrtr/stayrtr.go:932). -/
def b64Six (v : U32) (k : Nat) : BitVec 6 := (v >>> k).setWidth 6

/-- `base64.RawStdEncoding.EncodeToString`: groups of three bytes, the rest without padding (cmd/stayrtr/stayrtr.go:932). -/
def rawBase64 : Bytes → Bytes
  | a :: b :: c :: l =>
    b64Char (b64Six (b64Val a b c) 18) :: b64Char (b64Six (b64Val a b c) 12) :: b64Char (b64Six (b64Val a b c) 6) :: b64Char (b64Six (b64Val a b c) 0) :: rawBase64 l
  | [a, b] => [b64Char (b64Six (b64Val a b 0) 18), b64Char (b64Six (b64Val a b 0) 12), b64Char (b64Six (b64Val a b 0) 6)]
  | [a] => [b64Char (b64Six (b64Val a 0 0) 18), b64Char (b64Six (b64Val a 0 0) 12)]
  | [] => []

/-- `strings.Split(text, "\n")`, cmd/stayrtr/stayrtr.go:929. -/
def splitLines : Bytes → List Bytes
  | [] => [[]]
  | c :: l =>
    if c = 10 then [] :: splitLines l
    else match splitLines l with
      | h :: t => (c :: h) :: t
      | [] => [[c]]

/-- `fmt.Sprintf("%v %v", key.Type(), keyBase64)`, cmd/stayrtr/stayrtr.go:939. -/
def keyLine (k : SshKey) : Bytes := k.type ++ 32 :: rawBase64 k.blob

/-- The loop over the lines, cmd/stayrtr/stayrtr.go:935-945. -/
def keyListed (lines : List Bytes) (k : SshKey) : Bool := lines.any fun l => l != [] && (keyLine k).isPrefixOf l

/-- `PasswordCallback`, cmd/stayrtr/stayrtr.go:905-916. -/
def passwordCallback (f : SshFlags) (user supplied : Bytes) : Bool :=
  let password := if f.password = [] then f.envPassword else f.password
  !(user != f.user || supplied != password)

/-- `PublicKeyCallback`, cmd/stayrtr/stayrtr.go:931-957. The user is not looked at. -/
def keyCallback (f : SshFlags) (lines : List Bytes) (_user : Bytes) (k : SshKey) : Bool := if !f.bypass then keyListed lines k else true

/-- `ssh.ServerConfig` as far as authentication goes, cmd/stayrtr/stayrtr.go:897. -/
structure SshAuth where
  password : Option (Bytes → Bytes → Bool)
  publicKey : Option (Bytes → SshKey → Bool)
  noClientAuth : Bool

/-- The configuration built, cmd/stayrtr/stayrtr.go:897-963. A keys file that cannot be read ends the program (924-926). -/
def sshConfig (readFile : Bytes → Option Bytes) (f : SshFlags) : GoRes SshAuth :=
  let password := if f.enablePassword then some (passwordCallback f) else none
  let noClientAuth := !(f.enableKey || f.enablePassword)
  if f.enableKey then
    if f.keysFile = [] then .ok ⟨password, some (keyCallback f (splitLines f.envKeys)), noClientAuth⟩
    else match readFile f.keysFile with
      | none => .err
      | some text => .ok ⟨password, some (keyCallback f (splitLines text)), noClientAuth⟩
  else .ok ⟨password, none, noClientAuth⟩

/-- What a client presents (lib/server.go:511; cmd/stayrtr/stayrtr.go:905, 931). -/
inductive SshAttempt where
  | none (user : Bytes)
  | password (user supplied : Bytes)
  /-- `signed`: the client proved possession of the private key. -/
  | publicKey (user : Bytes) (key : SshKey) (signed : Bool)

/-- `serverAuthenticate` of golang.org/x/crypto/ssh (lib/server.go:511): the "none" method needs `NoClientAuth`, the others their callback; a key needs a valid signature too. -/
def SshAuth.admits (a : SshAuth) : SshAttempt → Bool
  | .none _ => a.noClientAuth
  | .password u p => match a.password with
    | some f => f u p
    | Option.none => false
  | .publicKey u k signed => match a.publicKey with
    | some f => f u k && signed
    | Option.none => false

end StayRTR
