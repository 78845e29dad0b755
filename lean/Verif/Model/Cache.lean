import Verif.Model.CacheEntry
/-
Model of the built-in cache (cache.go). Entries live in a heap addressed by pointers, because the code stores `*CacheEntry`
and shares the pointers with its callers.
-/
namespace Verif

/-- A Go pointer `*CacheEntry` (never nil here: Set dereferences its argument, cache.go:43). -/
abbrev Ptr := Nat

/-- `cacheTTL = int64(time.Hour)`, in nanoseconds (cache.go:11). -/
def cacheTTL : Int64 := 3600000000000

/-- `type cache struct` (cache.go:18-23) together with the heap of entries. The `sync.Once`/mutex are modelled in
`Model/Lock`; here each operation is one atomic step. The map `idx` is a total function into `Option`. -/
structure CacheState where
  /-- contents behind each pointer -/
  heap : Ptr → CacheEntry
  /-- `idx map[uint64]int`; the values stored are always `len(buf)-1` or a loop index, hence `Nat` -/
  idx : UInt64 → Option Nat
  /-- `buf []*CacheEntry` -/
  buf : List Ptr

namespace CacheState

/-- The cache after `init` (cache.go:25-38): empty map, empty buffer. -/
def empty (heap : Ptr → CacheEntry := fun _ => default) : CacheState := ⟨heap, fun _ => none, []⟩

/-- `cache.Set` (cache.go:40-55). `H` is `fnv.Hash64String`, `p` the caller's pointer, `now` the clock reading.
`none` is the index panic of line 49. Simplification: lines 43-44 run before the lock is taken; they only write the
caller's own entry. -/
def set (H : Bytes → UInt64) (st : CacheState) (key : Bytes) (p : Ptr) (now : Int64) : Option CacheState :=
  let heap := fun q => if q = p then { st.heap q with hkey := H key, timestamp := now } else st.heap q
  match st.idx (H key) with
  | some i => if i < st.buf.length then some { st with heap := heap, buf := st.buf.set i p } else none
  | none =>
    some { heap := heap, buf := st.buf ++ [p],
           idx := fun h => if h = H key then some ((st.buf ++ [p]).length - 1) else st.idx h }

/-- `cache.Get` (cache.go:57-68). `none` in the second component is `errCache404`. -/
def get (H : Bytes → UInt64) (st : CacheState) (key : Bytes) (now : Int64) : CacheState × Option Ptr :=
  match st.idx (H key) with
  | some i =>
    if h : i < st.buf.length then
      ({ st with heap := fun q => if q = st.buf[i] then { st.heap q with timestamp := now } else st.heap q }, some st.buf[i])
    else (st, none)
  | none => (st, none)

/-- The condition of cache.go:76, `now-c.buf[i].Timestamp > cacheTTL`, in wrapping int64 arithmetic. -/
def expired (st : CacheState) (now : Int64) (p : Ptr) : Bool := decide (now - (st.heap p).timestamp > cacheTTL)

/-- Body of the `if` in the loop of `clean` (cache.go:77-85), for an in-range `i`. -/
def removeAt (st : CacheState) (i : Nat) (hi : i < st.buf.length) : CacheState :=
  let l := st.buf.length
  let old := (st.heap st.buf[i]).hkey
  let last := st.buf[l - 1]
  let buf := (st.buf.set i last).take (l - 1)
  let idx := if i < buf.length then (fun h => if h = (st.heap last).hkey then some i else st.idx h) else st.idx
  { st with buf := buf, idx := fun h => if h = old then none else idx h }

theorem removeAt_length (st : CacheState) (i : Nat) (hi : i < st.buf.length) :
    (st.removeAt i hi).buf.length = st.buf.length - 1 := by
  simp [removeAt]

/-- The loop of `clean` (cache.go:75-87) from index `i` on. -/
def cleanLoop (now : Int64) (i : Nat) (st : CacheState) : CacheState :=
  if hi : i < st.buf.length then
    if st.expired now st.buf[i] then cleanLoop now (i + 1) (st.removeAt i hi)
    else cleanLoop now (i + 1) st
  else st
termination_by st.buf.length - i
decreasing_by
  · rw [removeAt_length]; omega
  · omega

/-- `cache.clean` (cache.go:70-88), run by the ticker goroutine of cache.go:29-37 at arbitrary moments. -/
def clean (st : CacheState) (now : Int64) : CacheState := cleanLoop now 0 st

end CacheState

/-- One operation on the cache. `set` carries the contents the caller put into the entry before calling Set. -/
inductive CacheOp where
  | set (key : Bytes) (p : Ptr) (e : CacheEntry) (now : Int64)
  | get (key : Bytes) (now : Int64)
  | clean (now : Int64)

/-- Effect of one operation; `none` is a panic. -/
def CacheState.step (H : Bytes → UInt64) (st : CacheState) : CacheOp → Option CacheState
  | .set key p e now => CacheState.set H { st with heap := fun q => if q = p then e else st.heap q } key p now
  | .get key now => some (st.get H key now).1
  | .clean now => some (st.clean now)

/-- A whole history, starting from a new cache; `none` if any operation panics. -/
def CacheState.run (H : Bytes → UInt64) (ops : List CacheOp) : Option CacheState :=
  ops.foldlM (CacheState.step H) CacheState.empty

/-- `fnv.Hash64String` of koykov/hash: FNV-1, 64 bit (multiply, then xor). External library; this variant is confirmed by the
keys of hint_repo.go, which are the hashes of the application ids of cmd/uaxplc/mod_hint.go. -/
def fnv1 (b : Bytes) : UInt64 := b.foldl (fun h c => (h * 0x100000001b3) ^^^ c.toUInt64) 0xcbf29ce484222325

end Verif
