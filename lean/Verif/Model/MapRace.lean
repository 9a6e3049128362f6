import Verif.Model.Go

/-!
# Two fetches at the same time

The cache file and the SLURM file are fetched by two goroutines (cmd/stayrtr/stayrtr.go:566-605, 817-852) that share the maps of one `FetchConfig`. Each access to a map is an interval during which
the goroutine stays at one place; the read-write lock is what it excludes.
-/

namespace StayRTR

/-- Where a goroutine is in `FetchFile`, utils/utils.go:50-172. -/
inductive FetchAt where
  /-- Before line 85, or the file is not a URL. -/
  | start
  /-- Reading both maps with the read lock, lines 85-97. -/
  | conditions
  /-- The request is under way, lines 99-118. -/
  | asked
  /-- Deleting from both maps with the lock, lines 126-129. -/
  | forgetting
  /-- The answer is 200, lines 134-137. -/
  | answered
  /-- Reading the map of tags at line 138, without a lock. -/
  | comparing
  /-- Line 138 is done, the tag is to be stored. -/
  | compared
  /-- Writing the map of tags with the lock, lines 139-141. -/
  | storing
  /-- Between lines 141 and 152. -/
  | stored
  /-- Writing the map of dates with the lock, lines 153-159. -/
  | dating
  /-- The maps are not touched any more. -/
  | done
  deriving DecidableEq, Repr

namespace FetchAt

/-- The read lock is held (utils/utils.go:85, 97). -/
def reads : FetchAt → Bool
  | .conditions => true
  | _ => false

/-- The write lock is held (utils/utils.go:126-129, 139-141, 153-159). -/
def writes : FetchAt → Bool
  | .forgetting => true
  | .storing => true
  | .dating => true
  | _ => false

/-- `RLock` does not wait: the other goroutine does not write (utils/utils.go:85). -/
def canRead (other : FetchAt) : Bool := !other.writes

/-- `Lock` does not wait (utils/utils.go:126, 139, 153). -/
def canWrite (other : FetchAt) : Bool := !other.writes && !other.reads

/-- One step of a goroutine, given where the other is, utils/utils.go:85-160. `etags`: `EnableEtags`, `dates`: `EnableLastModified`. At line 138 the map is read only if ETags are on and the tag is not
empty. -/
inductive Step (etags dates : Bool) (other : FetchAt) : FetchAt → FetchAt → Prop
  | lockRead (h : other.canRead) : Step etags dates other .start .conditions
  | unlockRead : Step etags dates other .conditions .asked
  | failed : Step etags dates other .asked .done
  | notModified : Step etags dates other .asked .done
  | error (h : other.canWrite) : Step etags dates other .asked .forgetting
  | forgot : Step etags dates other .forgetting .done
  | ok : Step etags dates other .asked .answered
  | compare (h : etags = true) : Step etags dates other .answered .comparing
  | skip : Step etags dates other .answered .compared
  | same : Step etags dates other .comparing .done
  | differs : Step etags dates other .comparing .compared
  | lockStore (h : other.canWrite) : Step etags dates other .compared .storing
  | unlockStore : Step etags dates other .storing .stored
  | noDate (h : dates = false) : Step etags dates other .stored .done
  | lockDate (hd : dates = true) (h : other.canWrite) : Step etags dates other .stored .dating
  | unlockDate : Step etags dates other .dating .done

end FetchAt

/-- The two goroutines, cmd/stayrtr/stayrtr.go:566-605: either takes a step. The flags tell whether each file is a URL; otherwise the maps are not touched (utils/utils.go:53, 161). -/
inductive RaceReached (etags dates url1 url2 : Bool) : FetchAt → FetchAt → Prop
  | init : RaceReached etags dates url1 url2 .start .start
  | first {a a' b : FetchAt} (h : RaceReached etags dates url1 url2 a b) (hu : url1 = true) (hs : FetchAt.Step etags dates b a a') : RaceReached etags dates url1 url2 a' b
  | second {a b b' : FetchAt} (h : RaceReached etags dates url1 url2 a b) (hu : url2 = true) (hs : FetchAt.Step etags dates a b b') : RaceReached etags dates url1 url2 a b'

end StayRTR
