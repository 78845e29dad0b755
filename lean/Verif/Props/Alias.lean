import Verif.Proofs.Memory
import Verif.Spec.Demo
/-
C49: how long the strings returned by a context stay valid.
-/
namespace Verif

/-- The getters returning windows answer exactly what the getters answer, with the same cache accesses and the same effect. -/
theorem C49_same_answers (T : Tables) (H : Bytes → UInt64) (op : Op) :
    op.prog T H = op.progL T H >>= fun a => M.ctx >>= fun c => pure (a.map (LAns.toAns c)) := progL_op op

/-- Whatever the cache answers, in every schedule: a string obtained from a getter other than GetModel, GetOSVersionString and
GetOSVersion (from a version: its Suffix) reads the same until the next SetUserAgent or Reset on that context; a string obtained from
those three does so at least until a cache hit is delivered to the context. -/
theorem C49_partial {T : Tables} {H : Bytes → UInt64} {G : CapPolicy} {s : MSys} (hr : MSys.Reach T H G anyCache s) (t : Nat) (h : Held) (hh : h ∈ s.held t)
    (hg : h.quiet = true ∨ (h.g ≠ .model ∧ h.g ≠ .osVersionString ∧ h.g ≠ .osVersion)) : (s.mem t).read h.str = h.bytes := by
  have := (msys_inv hr t).held h hh
  rcases hg with hg | hg
  · exact (this.2 hg).read
  · exact (this.1 fun hb => hb.elim hg.1 fun hb => hb.elim hg.2.1 hg.2.2).read

/-- A cache that never hits. -/
def missCache (_ : List (Bytes × CacheEntry)) (_ : Bytes) : GetResp → Prop
  | .hit _ => False
  | _ => True

theorem reach_any {T : Tables} {H : Bytes → UInt64} {G : CapPolicy} {ok} {s : MSys} (hr : MSys.Reach T H G ok s) : MSys.Reach T H G anyCache s := by
  induction hr with
  | init => exact .init
  | step _ st ih =>
    refine .step ih ?_
    cases st with
    | call op h => exact .call op h
    | get h r hr => exact .get h r trivial
    | set h => exact .set h
    | ret h => exact .ret h

/-- Without cache hits every string stays valid. -/
theorem C49_no_hits {T : Tables} {H : Bytes → UInt64} {G : CapPolicy} {s : MSys} (hr : MSys.Reach T H G missCache s) (t : Nat) (h : Held) (hh : h ∈ s.held t) :
    (s.mem t).read h.str = h.bytes := by
  refine C49_partial (reach_any hr) t h hh (.inl ?_)
  revert t h
  induction hr with
  | init => exact nofun
  | @step s s' hr st ih =>
    intro i h hh
    cases st with
    | @call t c op h0 =>
      dsimp only at hh
      split at hh
      · by_cases e : i = t
        · rw [e, upd_same] at hh; cases hh
        · rw [upd_ne _ _ e] at hh; exact ih i h hh
      · exact ih i h hh
    | @get t op k f h0 r hr =>
      dsimp only at hh
      by_cases e : i = t
      · rw [e, upd_same] at hh
        cases r with
        | hit e => exact hr.elim
        | miss => exact ih t h hh
        | nilEntry => exact ih t h hh
      · rw [upd_ne _ _ e] at hh; exact ih i h hh
    | set _ => exact ih i h hh
    | @ret t op c r h0 =>
      dsimp only at hh
      by_cases e : i = t
      · rw [e, upd_same] at hh
        rcases List.mem_append.mp hh with hh | hh
        · exact ih t h hh
        · unfold gained at hh
          split at hh
          · rw [List.mem_singleton] at hh; rw [hh]
          · rw [List.mem_singleton] at hh; rw [hh]
          · cases hh
      · rw [upd_ne _ _ e] at hh; exact ih i h hh

/-! ### Concrete runs -/

/-- The answer of a cache that has the latest entry. -/
def latestAns (h : List (Bytes × CacheEntry)) (k : Bytes) : GetResp :=
  match h.reverse.find? fun x => x.1 == k with
  | some x => .hit x.2
  | none => .miss

theorem latestAns_ok (h : List (Bytes × CacheEntry)) (k : Bytes) : latestCache h k (latestAns h k) := by
  unfold latestAns
  split
  · rename_i x hx
    have hk := List.find?_some hx
    have hk : x.1 = k := by simpa using hk
    show _ = some (k, x.2)
    rw [hx, ← hk]
  · trivial

/-- Let context `t` do its next step, the cache answering `ans`. -/
def MSys.next (G : CapPolicy) (ans : List (Bytes × CacheEntry) → Bytes → GetResp) (s : MSys) (t : Nat) : MSys :=
  match s.threads t with
  | .idle _ => s
  | .busy op (.get k f) =>
    { s with threads := upd s.threads t (.busy op (f (ans s.hist k))), held := upd s.held t (disturb (ans s.hist k) (s.held t)) }
  | .busy op (.set k e p) => { s with threads := upd s.threads t (.busy op p), hist := s.hist ++ [(k, e)] }
  | .busy op (.ret (c, r)) =>
    { s with threads := upd s.threads t (.idle c), mem := upd s.mem t ((s.mem t).after G op c),
             held := upd s.held t (s.held t ++ gained ((s.mem t).after G op c) c op r) }

/-- Start a call. -/
def MSys.start (T : Tables) (H : Bytes → UInt64) (s : MSys) (t : Nat) (op : Op) : MSys :=
  match s.threads t with
  | .idle c => { s with threads := upd s.threads t (.busy op (op.progL T H c)), held := if op.ends then upd s.held t [] else s.held }
  | .busy _ _ => s

section
variable {T : Tables} {H : Bytes → UInt64} {G : CapPolicy} {ok : List (Bytes × CacheEntry) → Bytes → GetResp → Prop}
  {ans : List (Bytes × CacheEntry) → Bytes → GetResp} (hans : ∀ h k, ok h k (ans h k))
include hans

theorem reach_next {s : MSys} (hr : MSys.Reach T H G ok s) (t : Nat) : MSys.Reach T H G ok (s.next G ans t) := by
  unfold MSys.next
  split
  · exact hr
  · rename_i h; exact .step hr (.get h _ (hans _ _))
  · rename_i h; exact .step hr (.set h)
  · rename_i h; exact .step hr (.ret h)

omit hans in
theorem reach_start {s : MSys} (hr : MSys.Reach T H G ok s) (t : Nat) (op : Op) : MSys.Reach T H G ok (s.start T H t op) := by
  unfold MSys.start
  split
  · rename_i h; exact .step hr (.call op h)
  · exact hr

omit hans in
/-- Start a call and let the context do four steps. -/
def MSys.call (T : Tables) (H : Bytes → UInt64) (G : CapPolicy) (ans : List (Bytes × CacheEntry) → Bytes → GetResp) (s : MSys) (x : Nat × Op) : MSys :=
  ((((s.start T H x.1 x.2).next G ans x.1).next G ans x.1).next G ans x.1).next G ans x.1

theorem reach_calls : ∀ (l : List (Nat × Op)) {s : MSys}, MSys.Reach T H G ok s → MSys.Reach T H G ok (l.foldl (MSys.call T H G ans) s)
  | [], _, h => h
  | _ :: l, _, h => reach_calls l (reach_next hans (reach_next hans (reach_next hans (reach_next hans (reach_start h _ _) _) _) _) _)
end

/-- A user agent whose OS version contains underscores. -/
def uaIOS : Bytes := ascii "iPhone OS 10_15_7 Chrome/9"

/-- Two contexts look at the same user agent: 0 is asked for the client, 1 for the client; then 1 starts again and is asked for the OS
version; then 0 starts again and is asked for the client. -/
def aliasCalls : List (Nat × Op) :=
  [(0, .setUserAgent uaIOS), (0, .get .clientType), (1, .setUserAgent uaIOS), (1, .get .clientType),
   (1, .setUserAgent uaIOS), (1, .get .osVersionString), (0, .setUserAgent uaIOS), (0, .get .clientType)]

/-- The runtime rounds capacities up to a multiple of eight, say. -/
def growEight : CapPolicy := fun _ n => (n + 7) / 8 * 8

/-- The run up to there. -/
def aliasRun : MSys := aliasCalls.foldl (MSys.call Demo.tables Demo.hash growEight latestAns) .init

/-- The same, and then context 1 is asked for the client. -/
def aliasRun' : MSys := [(1, Op.get .clientType)].foldl (MSys.call Demo.tables Demo.hash growEight latestAns) aliasRun

theorem reach_aliasRun : MSys.Reach Demo.tables Demo.hash growEight latestCache aliasRun := reach_calls latestAns_ok aliasCalls .init
theorem reach_aliasRun' : MSys.Reach Demo.tables Demo.hash growEight latestCache aliasRun' := reach_calls latestAns_ok _ reach_aliasRun

/-- The OS version is right at first, … -/
theorem alias_before : (aliasRun.held 1) = [⟨.osVersionString, .heap 3 0 7, ascii "10.15.7", true⟩] ∧
    (aliasRun.mem 1).read (.heap 3 0 7) = ascii "10.15.7" := by
  constructor <;> decide +kernel

/-- … and asking the same context for the client changes the text of the string obtained before, although the cache is honest and
up to date, and neither SetUserAgent nor Reset has been called. -/
theorem C49_refuted : ∃ (T : Tables) (H : Bytes → UInt64) (G : CapPolicy) (s : MSys), MSys.Reach T H G latestCache s ∧
    ∃ t, ∃ h ∈ s.held t, (s.mem t).read h.str ≠ h.bytes := by
  refine ⟨Demo.tables, Demo.hash, growEight, aliasRun', reach_aliasRun', 1, ⟨.osVersionString, .heap 3 0 7, ascii "10.15.7", false⟩, ?_, ?_⟩
  · decide +kernel
  · decide +kernel

/-- The string now reads as the beginning of the user agent. -/
theorem alias_after : (aliasRun'.mem 1).read (.heap 3 0 7) = ascii "iPhone " := by
  decide +kernel

/-- The run with one more call in between. -/
def aliasRun2 : MSys := [(1, Op.get .userAgent), (1, Op.get .clientType)].foldl (MSys.call Demo.tables Demo.hash growEight latestAns) aliasRun

/-- The hypotheses of `C49_partial` are met: a string of the other kind, held across a cache hit. -/
example : MSys.Reach Demo.tables Demo.hash growEight anyCache aliasRun2 ∧ ⟨.userAgent, .heap 2 0 26, uaIOS, false⟩ ∈ aliasRun2.held 1 :=
  ⟨reach_any (reach_calls latestAns_ok _ reach_aliasRun), by decide +kernel⟩

/-- And a string of the first kind, not held across a hit. -/
example : MSys.Reach Demo.tables Demo.hash growEight anyCache aliasRun ∧ ⟨.osVersionString, .heap 3 0 7, ascii "10.15.7", true⟩ ∈ aliasRun.held 1 :=
  ⟨reach_any reach_aliasRun, by decide +kernel⟩

/-- Without hits, and with two strings in the buffer. -/
def missRun : MSys := [(0, Op.setUserAgent uaIOS), (0, .get .osVersionString), (0, .get .clientType), (0, .get .osVersionString)].foldl
  (MSys.call Demo.tables Demo.hash growEight fun _ _ => .miss) .init

example : MSys.Reach Demo.tables Demo.hash growEight missCache missRun ∧
    missRun.held 0 = [⟨.osVersionString, .heap 3 0 7, ascii "10.15.7", true⟩, ⟨.osVersionString, .heap 4 7 7, ascii "10.15.7", true⟩] :=
  ⟨reach_calls (fun _ _ => trivial) _ .init, by decide +kernel⟩

/-! ### The Suffix of a version -/

/-- The regexp `lit([0-9._-]*)`. -/
def dashRe (lit : String) : Re where
  src := ascii (lit ++ "([\\d._-]*)")
  ncap := 1
  find b := match Demo.findSub (ascii lit) b 0 with
    | some i =>
      let e := i + (ascii lit).length
      let n := ((b.drop e).takeWhile fun c => (48 ≤ c ∧ c ≤ 57) ∨ c = 46 ∨ c = 95 ∨ c = 45).length
      some [i, e + n, e, e + n]
    | none => none

/-- Rules that take versions with a dash. -/
def dashTables : Tables := { Demo.tables with crRe := [dashRe "Chrome/", dashRe "curl/"], orRe := [dashRe "Android ", dashRe "iPhone OS "] }

/-- Both versions have a Suffix. -/
def uaDash : Bytes := ascii "iPhone OS 1_2_3_4_5-67 Chrome/1.2.3.4.5-89"

/-- Like `aliasCalls`, with versions. -/
def suffixCalls : List (Nat × Op) :=
  [(0, .setUserAgent uaDash), (0, .get .clientType), (1, .setUserAgent uaDash), (1, .get .clientType),
   (1, .setUserAgent uaDash), (1, .get .osVersion), (0, .setUserAgent uaDash), (0, .get .clientType)]

def suffixRun : MSys := suffixCalls.foldl (MSys.call dashTables Demo.hash growEight latestAns) .init
def suffixRun' : MSys := [(1, Op.get .browserVersion)].foldl (MSys.call dashTables Demo.hash growEight latestAns) suffixRun

theorem suffix_before : suffixRun.held 1 = [⟨.osVersion, .heap 3 10 2, ascii "67", true⟩] ∧ (suffixRun.mem 1).read (.heap 3 10 2) = ascii "67" := by
  constructor <;> decide +kernel

/-- Asking for the browser version changes the Suffix of the OS version the program holds. -/
theorem C49_suffix_refuted : ∃ (T : Tables) (H : Bytes → UInt64) (G : CapPolicy) (s : MSys), MSys.Reach T H G latestCache s ∧
    ∃ t, ∃ h ∈ s.held t, h.g = .osVersion ∧ (s.mem t).read h.str ≠ h.bytes := by
  refine ⟨dashTables, Demo.hash, growEight, suffixRun', reach_calls latestAns_ok _ (reach_calls latestAns_ok suffixCalls .init), 1,
    ⟨.osVersion, .heap 3 10 2, ascii "67", false⟩, ?_, rfl, ?_⟩
  · decide +kernel
  · decide +kernel

/-- The Suffix of the browser version is covered by `C49_partial`. -/
example : MSys.Reach dashTables Demo.hash growEight anyCache suffixRun' ∧ (∃ h ∈ suffixRun'.held 1, h.g = .browserVersion ∧ h.bytes = ascii "89") :=
  ⟨reach_any (reach_calls latestAns_ok _ (reach_calls latestAns_ok suffixCalls .init)), by decide +kernel⟩

end Verif
