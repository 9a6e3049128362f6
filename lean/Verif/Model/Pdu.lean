import Verif.Model.Netip

/-!
# RTR PDUs: encoding and decoding

Model of `/repo/lib/structs.go`. A reader is a finite byte string followed by end of file.
-/

namespace StayRTR

/-! PDU type codes, lib/structs.go:33-42. -/

/-- PDU_ID_SERIAL_NOTIFY, lib/structs.go:34. -/ def pduSerialNotify : U8 := 0
/-- PDU_ID_SERIAL_QUERY, lib/structs.go:35. -/ def pduSerialQuery : U8 := 1
/-- PDU_ID_RESET_QUERY, lib/structs.go:36. -/ def pduResetQuery : U8 := 2
/-- PDU_ID_CACHE_RESPONSE, lib/structs.go:37. -/ def pduCacheResponse : U8 := 3
/-- PDU_ID_IPV4_PREFIX, lib/structs.go:38. -/ def pduIPv4Prefix : U8 := 4
/-- PDU_ID_IPV6_PREFIX, lib/structs.go:39. -/ def pduIPv6Prefix : U8 := 6
/-- PDU_ID_END_OF_DATA, lib/structs.go:40. -/ def pduEndOfData : U8 := 7
/-- PDU_ID_CACHE_RESET, lib/structs.go:41. -/ def pduCacheReset : U8 := 8
/-- PDU_ID_ROUTER_KEY, lib/structs.go:42. -/ def pduRouterKey : U8 := 9
/-- PDU_ID_ERROR_REPORT, lib/structs.go:43. -/ def pduErrorReport : U8 := 10

/-- `messageMaxSize`, lib/structs.go:29. -/
def messageMaxSize : Nat := 262168

/-- The ten PDU structs, lib/structs.go:115-119, 151-155, 187-189, 220-223, 254-260, 297-303, 340-348, 390-392, 423-429, 468-473. -/
inductive Pdu where
  | serialNotify (version : U8) (session : U16) (serial : U32)
  | serialQuery (version : U8) (session : U16) (serial : U32)
  | resetQuery (version : U8)
  | cacheResponse (version : U8) (session : U16)
  | ipv4Prefix (version : U8) (flags : U8) (prefix_ : Prefix) (maxLen : U8) (asn : U32)
  | ipv6Prefix (version : U8) (flags : U8) (prefix_ : Prefix) (maxLen : U8) (asn : U32)
  | endOfData (version : U8) (session : U16) (serial refresh retry expire : U32)
  | cacheReset (version : U8)
  | routerKey (version : U8) (flags : U8) (ski : Bytes) (asn : U32) (spki : Bytes)
  | errorReport (version : U8) (code : U16) (pduCopy : Bytes) (msg : Bytes)
  deriving DecidableEq, Repr

namespace Pdu

/-- `GetVersion`, lib/structs.go:135, 171, 205, 239, 276, 319, 365, 408, 445, 489. -/
def getVersion : Pdu → U8
  | serialNotify v .. | serialQuery v .. | resetQuery v | cacheResponse v .. | ipv4Prefix v ..
  | ipv6Prefix v .. | endOfData v .. | cacheReset v | routerKey v .. | errorReport v .. => v

/-- `SetVersion`, lib/structs.go:131, 167, 201, 235, 272, 315, 361, 404, 441, 485. -/
def setVersion (v : U8) : Pdu → Pdu
  | serialNotify _ a b => serialNotify v a b
  | serialQuery _ a b => serialQuery v a b
  | resetQuery _ => resetQuery v
  | cacheResponse _ a => cacheResponse v a
  | ipv4Prefix _ a b c d => ipv4Prefix v a b c d
  | ipv6Prefix _ a b c d => ipv6Prefix v a b c d
  | endOfData _ a b c d e => endOfData v a b c d e
  | cacheReset _ => cacheReset v
  | routerKey _ a b c d => routerKey v a b c d
  | errorReport _ a b c => errorReport v a b c

/-- `GetType`, lib/structs.go:139, 175, 209, 243, 280, 323, 369, 412, 449, 493. -/
def getType : Pdu → U8
  | serialNotify .. => pduSerialNotify
  | serialQuery .. => pduSerialQuery
  | resetQuery .. => pduResetQuery
  | cacheResponse .. => pduCacheResponse
  | ipv4Prefix .. => pduIPv4Prefix
  | ipv6Prefix .. => pduIPv6Prefix
  | endOfData .. => pduEndOfData
  | cacheReset .. => pduCacheReset
  | routerKey .. => pduRouterKey
  | errorReport .. => pduErrorReport

/-- `binary.Write` of a uint8, as at lib/structs.go:144. -/
def w8 (x : U8) : Bytes := [x]
/-- `binary.Write` of a uint16, big endian, as at lib/structs.go:146. -/
def w16 (x : U16) : Bytes := beBytes 2 x.toNat
/-- `binary.Write` of a uint32, big endian, as at lib/structs.go:148. -/
def w32 (x : U32) : Bytes := beBytes 4 x.toNat
/-- `uint32(n)` of a Go int, written big endian, as at lib/structs.go:462, 507, 508, 510. -/
def wlen (n : Nat) : Bytes := w32 (BitVec.ofNat 32 n)
/-- `uint8(p.Bits())`: -1 becomes 255 (lib/structs.go:290, 333). -/
def wbits (p : Prefix) : Bytes := w8 (BitVec.ofInt 8 p.bits)

/-- `Write`/`Bytes` of the ten PDU types: lib/structs.go:143-149, 179-185, 213-218, 247-252, 284-295, 327-338,
373-388, 416-421, 453-466, 497-516. The only panic is `As4` on a non-IPv4 address (line 293). -/
def encode : Pdu → GoRes Bytes
  | serialNotify v s n => .ok (w8 v ++ w8 pduSerialNotify ++ w16 s ++ wlen 12 ++ w32 n)
  | serialQuery v s n => .ok (w8 v ++ w8 pduSerialQuery ++ w16 s ++ wlen 12 ++ w32 n)
  | resetQuery v => .ok (w8 v ++ w8 pduResetQuery ++ w16 0 ++ wlen 8)
  | cacheResponse v s => .ok (w8 v ++ w8 pduCacheResponse ++ w16 s ++ wlen 8)
  | ipv4Prefix v f p m a => do
      let addr ← p.ip.as4
      return w8 v ++ w8 pduIPv4Prefix ++ w16 0 ++ wlen 20 ++ w8 f ++ wbits p ++ w8 m ++ w8 0 ++ addr ++ w32 a
  | ipv6Prefix v f p m a =>
      .ok (w8 v ++ w8 pduIPv6Prefix ++ w16 0 ++ wlen 32 ++ w8 f ++ wbits p ++ w8 m ++ w8 0 ++ p.ip.as16 ++ w32 a)
  | endOfData v s n refresh retry expire =>
      if v = 0 then .ok (w8 v ++ w8 pduEndOfData ++ w16 s ++ wlen 12 ++ w32 n)
      else .ok (w8 v ++ w8 pduEndOfData ++ w16 s ++ wlen 24 ++ w32 n ++ w32 refresh ++ w32 retry ++ w32 expire)
  | cacheReset v => .ok (w8 v ++ w8 pduCacheReset ++ w16 0 ++ wlen 8)
  | routerKey v f ski a spki =>
      if ski.length ≠ 20 then .ok []
      else .ok (w8 v ++ w8 pduRouterKey ++ w8 f ++ w8 0 ++ wlen (32 + spki.length) ++ ski ++ w32 a ++ spki)
  | errorReport v c cp msg =>
      let addlen := if msg ≠ [] then 1 else 0
      .ok (w8 v ++ w8 pduErrorReport ++ w16 c ++ wlen (12 + cp.length + 4 + msg.length + addlen) ++
        wlen cp.length ++ cp ++ wlen (msg.length + addlen) ++ (if msg ≠ [] then msg ++ w8 0 else []))

end Pdu

/-- The type switch of `Decode` on the body `toread`, lib/structs.go:560-705. `session` is the 16-bit word at offset 2.
Slices and indices panic when out of range; lengths converted with `int(..)` are exact (64-bit int), sums of uint32 wrap. -/
def decodeBody (pver pduType : U8) (session : U16) (toread : Bytes) : GoRes Pdu :=
  if pduType = pduSerialNotify then
    if toread.length ≠ 4 then .err else do
      let serial ← goUint32 toread
      return .serialNotify pver session serial
  else if pduType = pduSerialQuery then
    if toread.length ≠ 4 then .err else do
      let serial ← goUint32 toread
      return .serialQuery pver session serial
  else if pduType = pduResetQuery then
    if toread.length ≠ 0 then .err else .ok (.resetQuery pver)
  else if pduType = pduCacheResponse then
    if toread.length ≠ 0 then .err else .ok (.cacheResponse pver session)
  else if pduType = pduIPv4Prefix then
    if toread.length ≠ 12 then .err else do
      let prefixLen ← goIndex toread 1
      let ip ← goSlice toread 4 8
      match Addr.fromSlice ip with
      | none => .err
      | some addr =>
        let asn ← goUint32 (← goSlice toread 8 toread.length)
        return .ipv4Prefix pver (← goIndex toread 0) (Prefix.from' addr prefixLen.toNat) (← goIndex toread 2) asn
  else if pduType = pduIPv6Prefix then
    if toread.length ≠ 24 then .err else do
      let prefixLen ← goIndex toread 1
      let ip ← goSlice toread 4 20
      match Addr.fromSlice ip with
      | none => .err
      | some addr =>
        let asn ← goUint32 (← goSlice toread 20 toread.length)
        return .ipv6Prefix pver (← goIndex toread 0) (Prefix.from' addr prefixLen.toNat) (← goIndex toread 2) asn
  else if pduType = pduEndOfData then
    if toread.length ≠ 4 ∧ toread.length ≠ 16 then .err
    else if toread.length = 4 then do
      let serial ← goUint32 toread
      return .endOfData pver session serial 0 0 0
    else do
      let serial ← goUint32 (← goSlice toread 0 4)
      let refresh ← goUint32 (← goSlice toread 4 8)
      let retry ← goUint32 (← goSlice toread 8 12)
      let expire ← goUint32 (← goSlice toread 12 16)
      return .endOfData pver session serial refresh retry expire
  else if pduType = pduCacheReset then
    if toread.length ≠ 0 then .err else .ok (.cacheReset pver)
  else if pduType = pduRouterKey then
    if toread.length < 28 then .err else do
      let asn ← goUint32 (← goSlice toread 20 24)
      let spki ← goSlice toread 24 toread.length
      let ski ← goSlice toread 0 20
      return .routerKey pver ((session >>> 8).truncate 8) ski asn spki
  else if pduType = pduErrorReport then
    if toread.length < 8 then .err else do
      let lenPdu ← goUint32 (← goSlice toread 0 4)
      if toread.length < lenPdu.toNat + 8 then .err else do
        let errPdu ← goSlice toread 4 (lenPdu + 4).toNat
        let lenErrText ← goUint32 (← goSlice toread (lenPdu + 4).toNat (lenPdu + 8).toNat)
        if toread.length < lenPdu.toNat + 8 + lenErrText.toNat then .err else do
          let errMsg ← goSlice toread (lenPdu + 8).toNat (lenPdu + 8 + lenErrText).toNat
          return .errorReport pver session errPdu errMsg
  else .err

/-- `Decode`, lib/structs.go:523-706, on a non-nil reader holding `s`: the PDU and the unread rest of the stream. -/
def decode (s : Bytes) : GoRes (Pdu × Bytes) := do
  let (pver, s) ← readN 1 s
  let (pduType, s) ← readN 1 s
  let (session, s) ← readN 2 s
  let (length, s) ← readN 4 s
  let length := beNat length
  if length < 8 then .err
  else if length > messageMaxSize then .err
  else do
    let (toread, s) ← readN (length - 8) s
    let pdu ← decodeBody (BitVec.ofNat 8 (beNat pver)) (BitVec.ofNat 8 (beNat pduType)) (BitVec.ofNat 16 (beNat session)) toread
    return (pdu, s)

/-- `DecodeBytes`, lib/structs.go:518-521: one PDU from a buffer, the rest of the buffer is ignored. -/
def decodeBytes (b : Bytes) : GoRes Pdu := do
  let (pdu, _) ← decode b
  return pdu

/-- `IsCorrectPDUVersion`, lib/structs.go:102-113. -/
def isCorrectPDUVersion (p : Pdu) (version : U8) : Bool :=
  if version > 1 then false
  else match p with
    | .routerKey .. => version != 0
    | _ => true

end StayRTR
