import Verif.Proofs.Types
import Verif.Props.Model
/-
C25: types are declared constants. C26: no panics with well-formed tables. C57: cache traffic.
-/
namespace Verif

section
variable {T : Tables} {H : Bytes → UInt64}

/-! ### C25 -/

/-- C25, clients: in every schedule, whatever the tables, GetClientType returns 0 or exactly one of the six constants, whose String is
not "UNK". -/
theorem C25_client_type {s : Sys} (hr : Sys.Reach T H s) {t : Nat} {op : Op} {typ : ClientType}
    (h : .ret t op (some (some (.clientType typ))) ∈ s.log) :
    typ = 0 ∨ (typ ∈ ([1, 2, 4, 8, 16, 32] : List ClientType) ∧ clientTypeString typ ≠ ascii "UNK") := by
  have h := typed_answers hr t op _ h _ rfl
  have key : ∀ x ∈ clientTypes, x = 0 ∨ (x ∈ ([1, 2, 4, 8, 16, 32] : List ClientType) ∧ clientTypeString x ≠ ascii "UNK") := by decide +kernel
  exact key typ h

/-- C25, devices: likewise for GetDeviceType and the ten constants. -/
theorem C25_device_type {s : Sys} (hr : Sys.Reach T H s) {t : Nat} {op : Op} {typ : DeviceType}
    (h : .ret t op (some (some (.deviceType typ))) ∈ s.log) :
    typ = 0 ∨ (typ ∈ ([1, 2, 4, 8, 16, 32, 64, 128, 256, 512] : List DeviceType) ∧ deviceTypeString typ ≠ ascii "UNK") := by
  have h := typed_answers hr t op _ h _ rfl
  have key : ∀ x ∈ deviceTypes, x = 0 ∨ (x ∈ ([1, 2, 4, 8, 16, 32, 64, 128, 256, 512] : List DeviceType) ∧ deviceTypeString x ≠ ascii "UNK") := by
    decide +kernel
  exact key typ h

/-- An execution answering both. -/
def Demo.typeCalls : List (Nat × Op) :=
  [(0, .setUserAgent Demo.phone), (0, .get .deviceType), (0, .get .clientType), (1, .setUserAgent Demo.phone), (1, .get .deviceType)]

example : ∃ s, Sys.Reach Demo.tables Demo.hash s ∧ .ret 0 (.get .deviceType) (some (some (.deviceType DeviceTypeMobile))) ∈ s.log ∧
    .ret 0 (.get .clientType) (some (some (.clientType ClientTypeBrowser))) ∈ s.log ∧
    .ret 1 (.get .deviceType) (some (some (.deviceType DeviceTypeMobile))) ∈ s.log :=
  ⟨_, reach_execs Demo.typeCalls .init, by decide +kernel, by decide +kernel, by decide +kernel⟩

/-! ### C26 -/

/-- A call panics only if the same getter panics without a cache, under some filters. -/
theorem no_panic_of {s : Sys} (hr : Sys.Reach T H s) {pre post : List Event} {t : Nat} {op : Op} {r : Option (Option Ans)}
    (hlog : s.log = pre ++ .ret t op r :: post) (hop : op ≠ .get .model)
    (htot : ∀ g, op = .get g → ∀ m d, outAns T H { reqOf pre t with mc := m, md := d } g ≠ none) : r ≠ none := by
  have hset : (∀ g, op ≠ .get g) → r ≠ none := by
    intro hg
    have := sys_gen (T := T) (H := H) (I := fun _ => True) (S := fun _ _ => True) (Q := fun op r => (∀ g, op ≠ .get g) → r ≠ none) trivial
      (fun _ _ _ _ _ => trivial) (fun op c _ => ?_) hr t op r (by rw [hlog]; simp)
    · exact this hg
    · cases op with
      | get g => exact (Prog.Safe.triv _ fun _ => trivial).mono fun r _ => ⟨trivial, fun h => absurd rfl (h g)⟩
      | _ => exact ⟨trivial, fun _ => by simp⟩
  cases op with
  | get g =>
    have hg : g ≠ .model := fun h => hop (by rw [h])
    have hu := used_of_answer hr hlog
    obtain ⟨x, c, hx, hp⟩ := answer_inv hr hlog
    rintro rfl
    have hx : x = none := by cases x with | none => rfl | some _ => cases hx
    obtain ⟨m, d, -, -, h⟩ := hp.panics hg (good_of hg hu fun q' _ _ => by
      rw [uncached_eq g hg]; exact htot g rfl _ _) hx
    exact htot g rfl m d h
  | _ => exact hset (by simp)

/-- C26: in every interleaving of any number of contexts over any honest cache, no call but GetModel panics on a user agent (shorter than
4 GiB) for which the tables are well formed. Other contexts may use other user agents, even unsafe ones. -/
theorem C26_no_panic {s : Sys} (hr : Sys.Reach T H s) {pre post : List Event} {t : Nat} {op : Op} {r : Option (Option Ans)}
    (hlog : s.log = pre ++ .ret t op r :: post) (hop : op ≠ .get .model)
    (hw : WFfor T (reqOf pre t).ua) (hl : (reqOf pre t).ua.length < 2 ^ 32) : r ≠ none :=
  no_panic_of hr hlog hop fun g hg m d => outAns_total (q := { reqOf pre t with mc := m, md := d }) hw.toWFbase hl (hw.chosen m) fun h => hop (by rw [hg, h])

/-- C26: the getters of the OS and of the device do not depend on the client tables being well formed. -/
theorem C26_no_panic_device {s : Sys} (hr : Sys.Reach T H s) {pre post : List Event} {t : Nat} {op : Op} {r : Option (Option Ans)}
    (hlog : s.log = pre ++ .ret t op r :: post) (hop : op ≠ .get .model) (hc : ∀ g, op = .get g → g.isC = false)
    (hw : WFdev T (reqOf pre t).ua) (hl : (reqOf pre t).ua.length < 2 ^ 32) : r ≠ none :=
  no_panic_of hr hlog hop fun g hg m d => outAns_total_dev (q := { reqOf pre t with mc := m, md := d }) hw hl (fun h => hop (by rw [hg, h])) (hc g hg)

/-- C26, GetModel: without a cache it does not panic either. -/
theorem C26_model_uncached {q : Req} (hw : WFdev T q.ua) (hu : q.ua.length < 2 ^ 32) (hl : modelBound T q.ua < 2 ^ 32) :
    uncached T H .model q ≠ none := by
  obtain ⟨mo, -, h⟩ := uncached_model (H := H) hl (devOut_total hw hu q.md)
  rw [h]; simp

/-- The hypotheses are met by the demo tables and calls, e.g. the last one of `Demo.typeCalls`. -/
example : ∃ s pre r, Sys.Reach Demo.tables Demo.hash s ∧ s.log = pre ++ .ret 1 (.get .deviceType) r :: [] ∧
    WFfor Demo.tables (reqOf pre 1).ua ∧ (reqOf pre 1).ua.length < 2 ^ 32 ∧ r ≠ none := by
  refine ⟨_, (Sys.init.execs Demo.tables Demo.hash Demo.typeCalls).log.take 9, _, reach_execs Demo.typeCalls .init,
    (by decide +kernel : _ = _ ++ Event.ret 1 (.get .deviceType) (some (some (.deviceType DeviceTypeMobile))) :: []), Demo.tables_wf _, by decide +kernel, by simp⟩

/-! ### C57 -/

/-- C57: every call, however the cache answers, makes at most two Gets and two Sets for device getters, one of each for client and OS
getters, none otherwise; and the key is always the user agent of the context. -/
theorem C57_traffic (op : Op) (c : Ctx) : (op.prog T H c).Within c.src (fun _ => True) (traffic op) (traffic op) := by
  cases op with
  | get g => exact ((tr_getter (T := T) g).map (f := some)).tr c |>.mono (fun _ _ => trivial) (Nat.le_refl _) (Nat.le_refl _)
  | _ => trivial

/-- The bounds are attained: device detection on a desktop stores two entries (the OS first). -/
example : (((Op.get .deviceType).prog Demo.tables Demo.hash (newCtx.setUserAgent (ascii "Windows"))).setsNull.map (·.1)) = [ascii "Windows", ascii "Windows"] := by
  decide +kernel

end
end Verif
