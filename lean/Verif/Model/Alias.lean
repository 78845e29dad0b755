import Verif.Model.Api
/-
Where the strings returned by a context live. `byteconv.B2S` (external library) turns a byte slice into a string without copying, so
a returned string is a window into a rule table, into the array of `c.src` or into the array of `c.buf`. The getters are modelled a
second time, returning windows; `Proofs/Alias` shows that they are the getters of `Model/Parse`.
-/
namespace Verif

/-! ### Windows -/

/-- A window: fixed text (rule tables and constants are never written), or `len` bytes from `lo` of `c.src` or `c.buf`. -/
inductive Loc where
  | static (t : Bytes)
  | src (lo len : Nat)
  | buf (lo len : Nat)
deriving DecidableEq, Repr

namespace Loc

/-- The bytes of the window. -/
def text (c : Ctx) : Loc → Bytes
  | static t => t
  | src lo len => (c.src.drop lo).take len
  | buf lo len => (c.buf.drop lo).take len

/-- `len(l)`. -/
def len : Loc → Nat
  | static t => t.length
  | src _ n => n
  | buf _ n => n

/-- `l[off:off+n]`. -/
def sub (off n : Nat) : Loc → Loc
  | static t => static ((t.drop off).take n)
  | src lo _ => src (lo + off) n
  | buf lo _ => buf (lo + off) n

/-- `lo, hi := e.Decode(); l[lo:hi]`, `none` = panic; like `sliceE?`. -/
def sliceE? (l : Loc) (e : Entry64) : Option Loc :=
  let lo := (Entry64.decode e).1.toNat
  let hi := (Entry64.decode e).2.toNat
  if lo ≤ hi ∧ hi ≤ l.len then some (l.sub lo (hi - lo)) else none

/-- `bytealg.TrimRight(l, []byte{x})`, a window of its argument. -/
def trimRight (x : UInt8) (c : Ctx) (l : Loc) : Loc := l.sub 0 (Verif.trimRight x (l.text c)).length

/-- `bytealg.Trim(l, []byte{x})`, a window of its argument. -/
def trim (x : UInt8) (c : Ctx) (l : Loc) : Loc :=
  l.sub ((l.text c).length - ((l.text c).dropWhile (· == x)).length) (Verif.trim x (l.text c)).length

end Loc

/-- The slice `c.src`. -/
def Ctx.srcLoc (c : Ctx) : Loc := .src 0 c.src.length
/-- The slice `c.buf`. -/
def Ctx.bufLoc (c : Ctx) : Loc := .buf 0 c.buf.length

/-! ### The getters, returning windows -/

/-- `GetUserAgent` (ctx.go:92-94). -/
def getUserAgentL : M Loc := do
  let c ← M.ctx
  pure c.srcLoc

/-- `GetBrowser` (ctx.go:103-125). -/
def getBrowserL (T : Tables) : M Loc := do
  ensure flagClientDetect (parseClient T)
  let c ← M.ctx
  let eb : Entry64 × Bytes :=
    if c.hintHash ≠ 0 then
      match T.hrIdx c.hintHash with
      | some he => (he, T.hrBuf)
      | none => (0, [])
    else if c.clientName64 > 0 then (c.clientName64, T.crBuf)
    else (0, [])
  if eb.1 > 0 then M.ofOption (Loc.sliceE? (.static eb.2) eb.1)
  else pure (.static unknown)

/-- `GetBrowserVersionString` (ctx.go:135-152). -/
def getBrowserVersionStringL (T : Tables) : M Loc := do
  ensure flagClientDetect (parseClient T)
  let c ← M.ctx
  if c.clientVersion64 > 0 then
    let buf := if c.check flagVerConstSrc then .static T.crBuf else c.srcLoc
    let raw ← M.ofOption (buf.sliceE? c.clientVersion64)
    let raw := match indexByteAt (raw.text c) 47 0 with
      | some p => raw.sub (p + 1) (raw.len - (p + 1))
      | none => raw
    pure (raw.trimRight 46 c)
  else pure (.static [])

/-- `GetEngine` (ctx.go:154-166). -/
def getEngineL (T : Tables) : M Loc := do
  ensure flagClientDetect (parseClient T)
  let c ← M.ctx
  if c.check flagEngineForceBlink then pure (.static (ascii "Blink"))
  else if c.engineName64 > 0 then M.ofOption (Loc.sliceE? (.static T.crBuf) c.engineName64)
  else pure (.static [])

/-- `GetEngineVersionString` (ctx.go:176-185). -/
def getEngineVersionStringL (T : Tables) : M Loc := do
  ensure flagClientDetect (parseClient T)
  let c ← M.ctx
  if c.engineVersion64 > 0 then M.ofOption (c.srcLoc.sliceE? c.engineVersion64)
  else pure (.static [])

/-- `GetBrand` (ctx.go:197-212). -/
def getBrandL (T : Tables) : M Loc := do
  ensure flagDeviceDetect (parseDevice T)
  let c ← M.ctx
  if c.brandName64 ≠ 0 then
    let buf := if c.check flagVendorFragment then T.vrBuf else T.drBuf
    let raw ← M.ofOption (Loc.sliceE? (.static buf) c.brandName64)
    pure (raw.trim 32 c)
  else pure (.static unknown)

/-- `GetModel` (ctx.go:214-225). -/
def getModelL (T : Tables) : M Loc := do
  ensure flagDeviceDetect (parseDevice T)
  let c ← M.ctx
  if c.modelName64 ≠ 0 then
    let raw ← M.ofOption (c.bufLoc.sliceE? c.modelName64)
    pure (raw.trim 32 c)
  else pure (.static [])

/-- `GetOS` (ctx.go:227-242). -/
def getOSL (T : Tables) : M Loc := do
  ensure flagOSDetect (parseOS T)
  let c ← M.ctx
  if c.osName64 ≠ 0 then
    let buf := if c.check flagOSBufSrc then c.srcLoc else .static T.orBuf
    let raw ← M.ofOption (buf.sliceE? c.osName64)
    pure (raw.trim 32 c)
  else pure (.static unknown)

/-- `GetOSVersionString` (ctx.go:252-278). -/
def getOSVersionStringL (T : Tables) : M Loc := do
  ensure flagOSDetect (parseOS T)
  let c ← M.ctx
  if c.osVersion64 > 0 then
    let buf := if c.check flagOSVerBufSrc then .static T.orBuf else c.srcLoc
    let raw ← M.ofOption (buf.sliceE? c.osVersion64)
    if (indexByte (raw.text c) 95).isSome then
      M.modify fun c' => { c' with buf := c'.buf ++ (raw.text c).map (fun b => if b = 95 then 46 else b),
                                   writes := c'.writes ++ (raw.text c).map fun b => BufOp.append [if b = 95 then 46 else b] }
      let c' ← M.ctx
      -- c.buf[off:]
      pure (.buf c.buf.length (c'.buf.length - c.buf.length))
    else pure raw
  else pure (.static [])

/-- `for i := 0; i < 4; i++` of `Version.Parse` (version.go:25-52) on a window; like `Version.parseLoop`. -/
def parseLoopL (c : Ctx) : Nat → Nat → Version → Loc → Version × Loc × Bool
  | 0, _, v, l => (v, l, false)
  | n + 1, i, v, l =>
    if (indexByte (l.text c) 46).isSome = true ∨ (l.text c).length > 0 then
      let idx := (indexByte (l.text c) 46).getD (l.text c).length
      match atoi ((l.text c).take idx) with
      | none => (v, l, true)
      | some d => parseLoopL c n (i + 1) (v.setComp i d)
          (if idx < (l.text c).length then l.sub (idx + 1) ((l.text c).length - (idx + 1)) else l.sub 0 0)
    else parseLoopL c n (i + 1) v l

/-- `Version.Parse` (version.go:20-62) on a window; also returns the window assigned to Suffix, if one is. -/
def parseL (c : Ctx) (v : Version) (l : Loc) : Version × Option Loc :=
  if v.p then (v, none)
  else if (l.text c).length > 0 then
    match parseLoopL c 4 0 v l with
    | (v, _, true) => (v, none)
    | (v, l, false) =>
      if (l.text c).length > 0 then
        match (l.text c).findIdx? (fun c => c == 32 || c == 45) with
        | some idx =>
          let w := l.sub (idx + 1) ((l.text c).length - (idx + 1))
          ({ v with suffix := w.text c, p := true }, some w)
        | none => ({ v with p := true }, none)
      else ({ v with p := true }, none)
  else ({ v with p := true }, none)

/-- Answers with strings as windows. A version comes with the window that this call made its Suffix, if it did. -/
inductive LAns where
  | str (l : Loc)
  | ver (v : Version) (w : Option Loc)
  | val (a : Ans)

/-- The answer as a value. -/
def LAns.toAns (c : Ctx) : LAns → Ans
  | str l => .text (l.text c)
  | ver v none => .version v
  | ver v (some w) => .version { v with suffix := w.text c }
  | val a => a

/-- `GetBrowserVersion` (ctx.go:127-133), `GetEngineVersion` (ctx.go:168-174), `GetOSVersion` (ctx.go:244-250): the field, how it is
written, and the getter of the string. The pointer returned is always the same; what matters is where the Suffix it points to lives. -/
def versionL (get : Ctx → Version) (set : Ctx → Version → Ctx) (s : M Loc) : M LAns := do
  let c ← M.ctx
  if (get c).p = true then pure (.ver (get c) none)
  else do
    let raw ← s
    let c ← M.ctx
    M.modify fun c => set c (parseL c (get c) raw).1
    pure (.ver (parseL c (get c) raw).1 (parseL c (get c) raw).2)

/-- The method behind each getter. -/
def Getter.progL (T : Tables) : Getter → M LAns
  | .userAgent => M.map .str getUserAgentL
  | .browser => M.map .str (getBrowserL T)
  | .browserVersionString => M.map .str (getBrowserVersionStringL T)
  | .engine => M.map .str (getEngineL T)
  | .engineVersionString => M.map .str (getEngineVersionStringL T)
  | .brand => M.map .str (getBrandL T)
  | .model => M.map .str (getModelL T)
  | .os => M.map .str (getOSL T)
  | .osVersionString => M.map .str (getOSVersionStringL T)
  | .clientType => M.map .val (Getter.clientType.prog T)
  | .deviceType => M.map .val (Getter.deviceType.prog T)
  | .browserVersion => versionL (·.clientVersion) (fun c v => { c with clientVersion := v }) (getBrowserVersionStringL T)
  | .engineVersion => versionL (·.engineVersion) (fun c v => { c with engineVersion := v }) (getEngineVersionStringL T)
  | .osVersion => versionL (·.osVersion) (fun c v => { c with osVersion := v }) (getOSVersionStringL T)

/-- The method behind each operation. -/
def Op.progL (T : Tables) (H : Bytes → UInt64) : Op → M (Option LAns)
  | .setUserAgent ua => M.modify (fun c => c.setUserAgent ua) >>= fun _ => Pure.pure none
  | .setRequestedWith h => M.modify (fun c => c.setRequestedWith H h) >>= fun _ => Pure.pure none
  | .filterClientType m => M.modify (fun c => c.filterClientType m) >>= fun _ => Pure.pure none
  | .filterDeviceType m => M.modify (fun c => c.filterDeviceType m) >>= fun _ => Pure.pure none
  | .reset => M.modify (fun c => c.reset) >>= fun _ => Pure.pure none
  | .get g => M.map some (g.progL T)

/-! ### Memory -/

/-- The byte arrays a context has used, by number, with their full capacity; the numbers of the arrays of `c.src` and `c.buf`;
`len(c.buf)`; how many of the context's writes have been carried out. Arrays are never freed or reused while a string points to them. -/
structure Mem where
  arrays : List Bytes
  src : Nat
  buf : Nat
  bufLen : Nat := 0
  seen : Nat := 0
deriving DecidableEq, Repr

/-- A new context: both slices are nil, that is without capacity (ctx.go:57-63). -/
def Mem.init : Mem := { arrays := [[], []], src := 0, buf := 1 }

/-- Growth policy of the runtime: capacity of the new array from the old capacity and the capacity needed. -/
abbrev CapPolicy := Nat → Nat → Nat

/-- `append(a[:n], s...)` for array `id`: in place if the capacity suffices, otherwise into a new array, whose capacity is at least what
is needed. -/
def appendAt (G : CapPolicy) (arrays : List Bytes) (id n : Nat) (s : Bytes) : List Bytes × Nat :=
  let a := arrays.getD id []
  if n + s.length ≤ a.length then (arrays.set id (a.take n ++ s ++ a.drop (n + s.length)), id)
  else
    let b := a.take n ++ s
    (arrays ++ [b ++ List.replicate (G a.length b.length - b.length) 0], arrays.length)

/-- Carry out a write to `c.buf`. -/
def Mem.write (G : CapPolicy) (m : Mem) : BufOp → Mem
  | .append s =>
    let r := appendAt G m.arrays m.buf m.bufLen s
    { m with arrays := r.1, buf := r.2, bufLen := m.bufLen + s.length }
  | .load s =>
    let r := appendAt G m.arrays m.buf 0 s
    { m with arrays := r.1, buf := r.2, bufLen := s.length }

/-- Memory after a call of `op` that left the context as `c`. -/
def Mem.after (G : CapPolicy) (m : Mem) (op : Op) (c : Ctx) : Mem :=
  match op with
  | .setUserAgent ua =>
    let r := appendAt G m.arrays m.src 0 ua
    { m with arrays := r.1, src := r.2, bufLen := 0, seen := c.writes.length }
  | .reset => { m with bufLen := 0, seen := c.writes.length }
  | _ => { (c.writes.drop m.seen).foldl (Mem.write G) m with seen := c.writes.length }

/-- A string: fixed text, or `len` bytes from `lo` of array `id`. -/
inductive Str where
  | static (t : Bytes)
  | heap (id lo len : Nat)
deriving DecidableEq, Repr

/-- The string of a window. -/
def Loc.str (m : Mem) : Loc → Str
  | .static t => .static t
  | .src lo len => .heap m.src lo len
  | .buf lo len => .heap m.buf lo len

/-- The bytes one finds when reading a string. -/
def Mem.read (m : Mem) : Str → Bytes
  | .static t => t
  | .heap id lo len => ((m.arrays.getD id []).drop lo).take len

/-! ### Contexts, their memory and the strings the program holds -/

/-- A string the program got from getter `g` (the Suffix, if it returns a version); what it read at that time; whether no cache hit has been delivered to the context since. -/
structure Held where
  g : Getter
  str : Str
  bytes : Bytes
  quiet : Bool
deriving DecidableEq, Repr

/-- A context is either idle or executing a call. -/
inductive LThread where
  | idle (c : Ctx)
  | busy (op : Op) (p : Prog (Ctx × Option (Option LAns)))

/-- Contexts, their memory, the strings obtained from each since its last SetUserAgent or Reset, and all Sets so far. -/
structure MSys where
  threads : Nat → LThread
  mem : Nat → Mem
  held : Nat → List Held
  hist : List (Bytes × CacheEntry)

/-- Program start. -/
def MSys.init : MSys := ⟨fun _ => .idle newCtx, fun _ => .init, fun _ => [], []⟩

/-- Pointwise update. -/
def upd {α : Type} (f : Nat → α) (t : Nat) (a : α) : Nat → α := fun i => if i = t then a else f i

/-- SetUserAgent and Reset end the life of the strings obtained before. -/
def Op.ends : Op → Bool
  | .setUserAgent _ => true
  | .reset => true
  | _ => false

/-- The string obtained by a call, if it was a getter of a string, or made a new Suffix, and did not panic. -/
def gained (m : Mem) (c : Ctx) : Op → Option (Option LAns) → List Held
  | .get g, some (some (.str l)) => [⟨g, l.str m, l.text c, true⟩]
  | .get g, some (some (.ver _ (some w))) => [⟨g, w.str m, w.text c, true⟩]
  | _, _ => []

/-- A hit makes the strings no longer quiet. -/
def disturb : GetResp → List Held → List Held
  | .hit _, l => l.map fun h => { h with quiet := false }
  | _, l => l

/-- One step of one goroutine; `ok` says which answers the cache may give. -/
inductive MSys.Step (T : Tables) (H : Bytes → UInt64) (G : CapPolicy) (ok : List (Bytes × CacheEntry) → Bytes → GetResp → Prop) (s : MSys) : MSys → Prop where
  | call {t c} (op : Op) (h : s.threads t = .idle c) :
      MSys.Step T H G ok s { s with threads := upd s.threads t (.busy op (op.progL T H c)),
                                    held := if op.ends then upd s.held t [] else s.held }
  | get {t op k f} (h : s.threads t = .busy op (.get k f)) (r : GetResp) (hr : ok s.hist k r) :
      MSys.Step T H G ok s { s with threads := upd s.threads t (.busy op (f r)), held := upd s.held t (disturb r (s.held t)) }
  | set {t op k e p} (h : s.threads t = .busy op (.set k e p)) :
      MSys.Step T H G ok s { s with threads := upd s.threads t (.busy op p), hist := s.hist ++ [(k, e)] }
  | ret {t op c r} (h : s.threads t = .busy op (.ret (c, r))) :
      MSys.Step T H G ok s { s with threads := upd s.threads t (.idle c), mem := upd s.mem t ((s.mem t).after G op c),
                                    held := upd s.held t (s.held t ++ gained ((s.mem t).after G op c) c op r) }

/-- States reachable from program start. -/
inductive MSys.Reach (T : Tables) (H : Bytes → UInt64) (G : CapPolicy) (ok : List (Bytes × CacheEntry) → Bytes → GetResp → Prop) : MSys → Prop where
  | init : MSys.Reach T H G ok MSys.init
  | step {s s'} (h : MSys.Reach T H G ok s) (st : MSys.Step T H G ok s s') : MSys.Reach T H G ok s'

/-- A cache may answer anything at all. -/
def anyCache (_ : List (Bytes × CacheEntry)) (_ : Bytes) (_ : GetResp) : Prop := True

/-- A cache that misses, or answers with the entry most recently set for the key. -/
def latestCache (h : List (Bytes × CacheEntry)) (k : Bytes) : GetResp → Prop
  | .miss => True
  | .nilEntry => False
  | .hit e => (h.reverse.find? fun x => x.1 == k) = some (k, e)

end Verif
