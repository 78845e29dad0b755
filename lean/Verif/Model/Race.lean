import Verif.Spec.Race
/-
Programs using the library from many goroutines, at the level of memory accesses: which locations are touched in which order, under which
locks. Values are left out: where the code branches on a value, both branches are possible here, so the model has all executions of the code
and more.

Simplifications: a method of a context that does not turn to the cache reads the rule tables and accesses the context once; entries are found,
replaced and expire arbitrarily; `*regexp.Regexp` is safe for concurrent use (package regexp) and not a location. Caches are not told apart: any
of them may behave as the built-in one or as one of the program's own, which does everything under its lock.
-/
namespace Verif.Race

/-- Pieces of work of a goroutine. -/
inductive Instr where
  | acc (write : Bool) (l : Loc)
  | lock (k : Nat)
  | unlock (k : Nat)
  /-- `c.o.Do(c.init)` (cache.go:41, 60, 72) and its end -/
  | once (k : Nat)
  | onceDone (k : Nat)
  /-- `GetCache().Get(c.GetUserAgent())` by context `c` (client_parser.go:19, device_parser.go:47, os.go:47) -/
  | find (c : Nat)
  /-- the body of `Get` under the lock (cache.go:63-67) and what follows in the getter -/
  | look (k c : Nat)
  /-- detection is over: `e.FromCtx(c)` and `GetCache().Set` (client_parser.go:27-29, device_parser.go:55-57, os.go:54-56) -/
  | save (c : Nat)
  /-- `GetCache().Set(c.GetUserAgent(), &e)` -/
  | set (e c : Nat)
  /-- the writes to `buf` and `idx` in `Set` (cache.go:48-53) -/
  | place (k e : Nat)
  /-- the loop of the cleaner (cache.go:30-37), one round of it (cache.go:70-88) and its writes -/
  | clean (k : Nat)
  | sweep (k : Nat)
  | shrink (k : Nat) (keep : List Nat)
  /-- `cache_.Store(&cache)` (uaxpl.go:12) -/
  | store (b k : Nat)
  /-- `p.p.Put(ctx)` (pool.go:31) -/
  | put (c : Nat)
  /-- the `go` statement in `init` of the cache (cache.go:30) -/
  | goClean (k : Nat)
  /-- not done by the library: `GetCache().Get(key)` called directly, then `MarshalTo` of the entry, and the same under the lock -/
  | userFind
  | userLook (k : Nat)

/-- Bookkeeping of objects: not there yet, known to one goroutine only, known to all. -/
inductive Own where
  | free
  | mine (t : Nat)
  | shared (k : Nat)
deriving DecidableEq

inductive Once where
  | new
  | running
  | done
deriving DecidableEq

structure State where
  trace : Trace
  /-- what each goroutine has still to do in its current call; `none`: not started -/
  todo : Nat → Option (List Instr)
  holder : Nat → Option Nat
  once : Nat → Once
  buf : Nat → List Nat
  /-- contexts: `shared` means in the pool (the number is not used) -/
  ctx : Nat → Own
  /-- entries: `shared k` means stored in cache `k` -/
  entry : Nat → Own
  /-- boxes: `shared` means stored in `cache_` at some time -/
  box : Nat → Own
  /-- `cache_`: a box and the cache in it -/
  cur : Option (Nat × Nat)

/-- Set one value of a function. -/
def upd {α : Type} (f : Nat → α) (i : Nat) (a : α) : Nat → α := fun j => if j = i then a else f j

/-- Package initialisation (uaxpl.go:7-9, the variables of `*_repo.go`): goroutine 0 will initialise the rule tables and install the built-in
cache number 0. -/
def State.init : State where
  trace := []
  todo := fun t => if t = 0 then some [.acc true .rules, .acc true (.box 0), .store 0 0] else none
  holder := fun _ => none
  once := fun _ => .new
  buf := fun _ => []
  ctx := fun _ => .free
  entry := fun _ => .free
  box := fun b => if b = 0 then .mine 0 else .free
  cur := none

/-- The event happens and the goroutine goes on with `r`. -/
def State.emit (s : State) (t : Nat) (x : Ev) (r : List Instr) : State := { s with trace := s.trace ++ [(t, x)], todo := upd s.todo t (some r) }

/-- The goroutine goes on with `r`. -/
def State.goOn (s : State) (t : Nat) (r : List Instr) : State := { s with todo := upd s.todo t (some r) }

/-- The rest of a getter that found nothing in the cache: detection writes to the context. -/
def detect (c : Nat) : List Instr := [.acc false .rules, .acc true (.ctx c), .save c]

/-- One step of goroutine `t`. With `direct` goroutines may also use the built-in cache directly. -/
inductive Step (direct : Bool) (t : Nat) (s : State) : State → Prop where
  /-- `NewCtx` (ctx.go:57-63) -/
  | newCtx {c} (ht : s.todo t = some []) (hc : s.ctx c = .free) :
      Step direct t s { s.goOn t [.acc true (.ctx c)] with ctx := upd s.ctx c (.mine t) }
  /-- `Acquire` of a used context (pool.go:18-26) -/
  | acquire {c k} (ht : s.todo t = some []) (hc : s.ctx c = .shared k) : Step direct t s { s.emit t (.get c) [] with ctx := upd s.ctx c (.mine t) }
  /-- `Release`: Reset, then Put (pool.go:29-32) -/
  | release {c} (ht : s.todo t = some []) (hc : s.ctx c = .mine t) : Step direct t s (s.goOn t [.acc true (.ctx c), .put c])
  /-- a method that does not turn to the cache -/
  | method {c} (ht : s.todo t = some []) (hc : s.ctx c = .mine t) : Step direct t s (s.goOn t [.acc false .rules, .acc true (.ctx c)])
  /-- the program gives a context away by means of its own, say a channel; `acquire` is also the receiving of it -/
  | send {c} (ht : s.todo t = some []) (hc : s.ctx c = .mine t) : Step direct t s { s.emit t (.put c) [] with ctx := upd s.ctx c (.shared 0) }
  /-- the program gives a context to a goroutine it starts -/
  | hand {c u} (ht : s.todo t = some []) (hu : s.todo u = none) (hc : s.ctx c = .mine t) :
      Step direct t s { s.emit t (.go u) [] with todo := upd (upd s.todo t (some [])) u (some []), ctx := upd s.ctx c (.mine u) }
  /-- a getter whose part is not known yet -/
  | getter {c} (ht : s.todo t = some []) (hc : s.ctx c = .mine t) : Step direct t s (s.goOn t [.acc false (.ctx c), .find c])
  /-- `SetCache` (uaxpl.go:11-13) -/
  | setCache {b k} (ht : s.todo t = some []) (hb : s.box b = .free) :
      Step direct t s { s.goOn t [.acc true (.box b), .store b k] with box := upd s.box b (.mine t) }
  /-- starting a goroutine -/
  | spawn {u} (ht : s.todo t = some []) (hu : s.todo u = none) :
      Step direct t s { s.emit t (.go u) [] with todo := upd (upd s.todo t (some [])) u (some []) }
  | acc {w l r} (ht : s.todo t = some (.acc w l :: r)) : Step direct t s (s.emit t (.acc w l) r)
  | lock {k r} (ht : s.todo t = some (.lock k :: r)) (hk : s.holder k = none) : Step direct t s { s.emit t (.lock k) r with holder := upd s.holder k (some t) }
  | unlock {k r} (ht : s.todo t = some (.unlock k :: r)) : Step direct t s { s.emit t (.unlock k) r with holder := upd s.holder k none }
  /-- the first `Do` runs `init` (cache.go:25-39) -/
  | onceFirst {k r} (ht : s.todo t = some (.once k :: r)) (ho : s.once k = .new) :
      Step direct t s { s.goOn t (.lock k :: .acc true (.table k) :: .goClean k :: .unlock k :: .onceDone k :: r) with once := upd s.once k .running }
  | onceEnd {k r} (ht : s.todo t = some (.onceDone k :: r)) : Step direct t s { s.goOn t r with once := upd s.once k .done }
  | onceSkip {k r} (ht : s.todo t = some (.once k :: r)) (ho : s.once k = .done) : Step direct t s (s.goOn t r)
  | goClean {k r u} (ht : s.todo t = some (.goClean k :: r)) (hu : s.todo u = none) :
      Step direct t s { s.emit t (.go u) r with todo := upd (upd s.todo t (some r)) u (some [.clean k]) }
  /-- `*cache_.Load()` (uaxpl.go:16), then `Get` up to the lock (cache.go:58-62) -/
  | find {c r b k} (ht : s.todo t = some (.find c :: r)) (hc : s.cur = some (b, k)) :
      Step direct t s (s.emit t (.load b) (.acc false (.box b) :: .acc false (.ctx c) :: .once k :: .lock k :: .look k c :: r))
  /-- the same with a cache of the program's own (cache.go:13-16) -/
  | findOwn {c r b k} (ht : s.todo t = some (.find c :: r)) (hc : s.cur = some (b, k)) :
      Step direct t s (s.emit t (.load b) (.acc false (.box b) :: .acc false (.ctx c) :: .lock k :: .look k c :: r))
  /-- a cache of the program's own finds an entry and does not write to it -/
  | hitOwn {k c r e} (ht : s.todo t = some (.look k c :: r)) (he : e ∈ s.buf k) :
      Step direct t s (s.emit t (.acc false (.table k)) (.unlock k :: .acc false (.result e) :: .acc true (.ctx c) :: r))
  | staleOwn {k c r e} (ht : s.todo t = some (.look k c :: r)) (he : e ∈ s.buf k) :
      Step direct t s (s.emit t (.acc false (.table k)) (.unlock k :: .acc false (.result e) :: (detect c ++ r)))
  /-- a cache of the program's own makes a new entry, say with Unmarshal (cache_entry.go:115-159) -/
  | make {k c r e} (ht : s.todo t = some (.look k c :: r)) (he : s.entry e = .free) :
      Step direct t s { s.goOn t (.unlock k :: .acc true (.result e) :: .acc true (.hkey e) :: .acc true (.stamp e) :: .acc false (.result e) ::
        .acc true (.ctx c) :: r) with entry := upd s.entry e (.mine t) }
  /-- a cache of the program's own looks at what it has, and drops some of it -/
  | tend {k} (ht : s.todo t = some []) : Step direct t s (s.goOn t [.lock k, .sweep k, .unlock k])
  /-- not found (cache.go:67) -/
  | miss {k c r} (ht : s.todo t = some (.look k c :: r)) : Step direct t s (s.emit t (.acc false (.table k)) (.unlock k :: (detect c ++ r)))
  /-- found (cache.go:63-66), and the entry has the wanted part: `fromCache` (ctx.go:311-324) -/
  | hit {k c r e} (ht : s.todo t = some (.look k c :: r)) (he : e ∈ s.buf k) :
      Step direct t s (s.emit t (.acc false (.table k)) (.acc true (.stamp e) :: .acc false (.table k) :: .unlock k :: .acc false (.result e) :: .acc true (.ctx c) :: r))
  /-- found, but without the wanted part -/
  | stale {k c r e} (ht : s.todo t = some (.look k c :: r)) (he : e ∈ s.buf k) :
      Step direct t s (s.emit t (.acc false (.table k)) (.acc true (.stamp e) :: .acc false (.table k) :: .unlock k :: .acc false (.result e) :: (detect c ++ r)))
  /-- detection calls another getter, as that of the device calls `GetOS` (device_parser.go:143) -/
  | nested {c r} (ht : s.todo t = some (.save c :: r)) : Step direct t s (s.goOn t (.acc false (.ctx c) :: .find c :: (detect c ++ r)))
  /-- `var e CacheEntry; e.FromCtx(c)` -/
  | save {c r e} (ht : s.todo t = some (.save c :: r)) (he : s.entry e = .free) :
      Step direct t s { s.goOn t (.acc false (.ctx c) :: .acc true (.result e) :: .set e c :: r) with entry := upd s.entry e (.mine t) }
  /-- `*cache_.Load()`, then `Set` up to the writes (cache.go:41-48) -/
  | set {e c r b k} (ht : s.todo t = some (.set e c :: r)) (hc : s.cur = some (b, k)) :
      Step direct t s (s.emit t (.load b) (.acc false (.box b) :: .once k :: .acc false (.ctx c) :: .acc true (.hkey e) :: .acc true (.stamp e) :: .lock k ::
        .acc false (.hkey e) :: .acc false (.table k) :: .place k e :: .unlock k :: r))
  /-- the same with a cache of the program's own -/
  | setOwn {e c r b k} (ht : s.todo t = some (.set e c :: r)) (hc : s.cur = some (b, k)) :
      Step direct t s (s.emit t (.load b) (.acc false (.box b) :: .acc false (.ctx c) :: .lock k :: .place k e :: .unlock k :: r))
  /-- the key is there (cache.go:49) -/
  | replace {k e r i} (ht : s.todo t = some (.place k e :: r)) (hi : i < (s.buf k).length) :
      Step direct t s { s.emit t (.acc true (.table k)) r with buf := upd s.buf k ((s.buf k).set i e), entry := upd s.entry e (.shared k) }
  /-- a new key (cache.go:52-53) -/
  | append {k e r} (ht : s.todo t = some (.place k e :: r)) :
      Step direct t s { s.emit t (.acc true (.table k)) (.acc false (.hkey e) :: r) with
        buf := upd s.buf k (s.buf k ++ [e]), entry := upd s.entry e (.shared k) }
  | clean {k r} (ht : s.todo t = some (.clean k :: r)) : Step direct t s (s.goOn t (.once k :: .lock k :: .sweep k :: .unlock k :: .clean k :: r))
  /-- the loop over `buf`: time stamps and keys of entries are read (cache.go:75-83) -/
  | sweep {k r} {es keep : List Nat} (ht : s.todo t = some (.sweep k :: r)) (he : ∀ e ∈ es, e ∈ s.buf k) (hk : ∀ e ∈ keep, e ∈ s.buf k) :
      Step direct t s (s.emit t (.acc false (.table k)) (es.flatMap (fun e => [.acc false (.stamp e), .acc false (.hkey e)]) ++ (.shrink k keep :: r)))
  /-- nothing expired -/
  | sweepNot {k r} {es : List Nat} (ht : s.todo t = some (.sweep k :: r)) (he : ∀ e ∈ es, e ∈ s.buf k) :
      Step direct t s (s.emit t (.acc false (.table k)) (es.map (fun e => .acc false (.stamp e)) ++ r))
  /-- cache.go:79-85 -/
  | shrink {k keep r} (ht : s.todo t = some (.shrink k keep :: r)) :
      Step direct t s { s.emit t (.acc true (.table k)) r with buf := upd s.buf k keep }
  | store {b k r} (ht : s.todo t = some (.store b k :: r)) :
      Step direct t s { s.emit t (.store b) r with box := upd s.box b (.shared k), cur := some (b, k) }
  | put {c r} (ht : s.todo t = some (.put c :: r)) : Step direct t s { s.emit t (.put c) r with ctx := upd s.ctx c (.shared 0) }
  /-- a program that asks the cache itself -/
  | user (hd : direct = true) (ht : s.todo t = some []) : Step direct t s (s.goOn t [.userFind])
  | userFind {r b k} (ht : s.todo t = some (.userFind :: r)) (hc : s.cur = some (b, k)) :
      Step direct t s (s.emit t (.load b) (.acc false (.box b) :: .once k :: .lock k :: .userLook k :: r))
  /-- the entry is found and marshalled, which reads all fields (cache_entry.go:71-113) -/
  | userHit {k r e} (ht : s.todo t = some (.userLook k :: r)) (he : e ∈ s.buf k) :
      Step direct t s (s.emit t (.acc false (.table k)) (.acc true (.stamp e) :: .acc false (.table k) :: .unlock k ::
        .acc false (.result e) :: .acc false (.hkey e) :: .acc false (.stamp e) :: r))

/-- Executions. -/
inductive Reachable (direct : Bool) : State → Prop where
  | init : Reachable direct .init
  | step {s s' t} (h : Reachable direct s) (st : Step direct t s s') : Reachable direct s'

end Verif.Race
