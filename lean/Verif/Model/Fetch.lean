import Verif.Model.Go

/-!
# Fetching a file

`FetchConfig.FetchFile`, utils/utils.go:50-172. The network is an input: what happens to the request, and what the answer is.
-/

namespace StayRTR

/-- What happens to one attempt: the file system or the network, as seen by utils/utils.go:50-172. -/
inductive Outcome where
  /-- The request cannot be built or sent, or the file cannot be opened (utils/utils.go:74-77, 99-113, 162-165). -/
  | failed
  /-- An HTTP answer: status, `ETag` header (empty: absent), `Last-Modified` header if it parses, and the body, `none` if reading it fails (utils/utils.go:114-160, 167-170). -/
  | response (status : Nat) (etag : Str) (lastModified : Option Int) (body : Option Bytes)
  /-- A local file: its content, `none` if reading it fails (utils/utils.go:161-170). -/
  | file (body : Option Bytes)
  deriving DecidableEq, Repr

/-- `FetchConfig`, utils/utils.go:13-22: the two maps and the two switches. -/
structure FetchConfig where
  etags : Str → Option Str
  lastModified : Str → Option Int
  enableEtags : Bool
  enableLastModified : Bool

/-- `NewFetchConfig`, utils/utils.go:24-31, with the switches set at cmd/stayrtr/stayrtr.go:795-796. -/
def FetchConfig.new (enableEtags enableLastModified : Bool) : FetchConfig := ⟨fun _ => none, fun _ => none, enableEtags, enableLastModified⟩

/-- The errors of `FetchFile` that callers tell apart: utils/utils.go:33-48. -/
inductive FetchErr where
  | notModified
  | identicalEtag
  | other
  deriving DecidableEq, Repr

/-- The four results of `FetchFile`, utils/utils.go:50. -/
structure FetchResult where
  data : Bytes
  code : Int
  lastRefresh : Bool
  err : Option FetchErr
  deriving DecidableEq, Repr

/-- The conditional headers of a request, utils/utils.go:84-97. -/
structure Conditions where
  ifNoneMatch : Option Str
  ifModifiedSince : Option Int
  deriving DecidableEq, Repr

/-- Whether `FetchFile` takes a name for a URL, utils/utils.go:53; `len` counts the bytes of the name in UTF-8. -/
def isURL (file : Str) : Bool :=
  decide ((file.map Char.utf8Size).sum > 8) && (file.take 7 == ['h', 't', 't', 'p', ':', '/', '/'] || file.take 8 == ['h', 't', 't', 'p', 's', ':', '/', '/'])

namespace FetchConfig

/-- The conditional headers that are set, utils/utils.go:84-97. -/
def conditions (c : FetchConfig) (file : Str) : Conditions :=
  ⟨if c.enableEtags then c.etags file else none, if c.enableLastModified then c.lastModified file else none⟩

/-- Map assignment or deletion (utils/utils.go:127, 140). -/
def setEtag (c : FetchConfig) (file : Str) (v : Option Str) : FetchConfig := { c with etags := fun f => if f = file then v else c.etags f }

/-- Map assignment or deletion (utils/utils.go:128, 155, 157). -/
def setLastModified (c : FetchConfig) (file : Str) (v : Option Int) : FetchConfig := { c with lastModified := fun f => if f = file then v else c.lastModified f }

/-- The end of `FetchFile`, utils/utils.go:167-171. -/
def readAll : Option Bytes → FetchResult
  | none => ⟨[], -1, false, some .other⟩
  | some b => ⟨b, -1, false, none⟩

/-- `FetchFile` for a URL once there is an answer, utils/utils.go:120-160, 167-171. A missing map entry reads as the empty string (line 138). -/
def onResponse (c : FetchConfig) (file : Str) (status : Nat) (etag : Str) (lastModified : Option Int) (body : Option Bytes) : FetchConfig × FetchResult :=
  if status = 304 then (c, ⟨[], status, true, some .notModified⟩)
  else if status ≠ 200 then ((c.setEtag file none).setLastModified file none, ⟨[], status, true, some .other⟩)
  else if c.enableEtags = false ∨ etag = [] ∨ etag ≠ (c.etags file).getD [] then
    let c := c.setEtag file (some etag)
    let c := if c.enableLastModified then c.setLastModified file lastModified else c
    (c, readAll body)
  else (c, ⟨[], status, true, some .identicalEtag⟩)

/-- `FetchFile`, utils/utils.go:50-172. An outcome of the wrong kind for the name counts as a failure. -/
def fetchFile (c : FetchConfig) (file : Str) (o : Outcome) : FetchConfig × FetchResult :=
  match o with
  | .failed => (c, ⟨[], -1, false, some .other⟩)
  | .response status etag lm body =>
    if isURL file then c.onResponse file status etag lm body else (c, ⟨[], -1, false, some .other⟩)
  | .file body => if isURL file then (c, ⟨[], -1, false, some .other⟩) else (c, readAll body)

end FetchConfig

end StayRTR
