import Verif.Proofs.NullModel
import Verif.Proofs.DemoWF
import Verif.Props.Transparency
/-
Properties of a single context: C16 (Reset), C17 (SetUserAgent), C18 (filters), C20 (model and cache), C21 (order of calls), C29 (GetModel part).
-/
namespace Verif

section
variable {T : Tables} {H : Bytes → UInt64}

/-! ### C16, C17 -/

/-- C16, state: Reset makes any context, whatever was done with it (including panics and cache hits), equal to a new one, so that every
later operation behaves as on a new one. The pool itself is in `Props/Pool`. -/
theorem C16_reset_is_new (c : Ctx) : c.reset = newCtx := rfl

/-- C16, behaviour: any operation after Reset does what it does on a new context, against any cache. -/
theorem C16_behaves_as_new (c : Ctx) (op : Op) : op.prog T H c.reset = op.prog T H newCtx := rfl

/-- C17: after SetUserAgent every operation, against any cache, does what it does on a new context given the same filters and user agent. -/
theorem C17_forgets (c : Ctx) (ua : Bytes) (op : Op) :
    op.prog T H (c.setUserAgent ua) =
      op.prog T H (((newCtx.filterClientType c.maskClientType).filterDeviceType c.maskDeviceType).setUserAgent ua) := rfl

/-- C17, with C18: for contexts that exist in some execution the filters are those of the API calls made, so that after SetUserAgent
the context is the new one of the request. -/
theorem C17_reachable {s : Sys} (hr : Sys.Reach T H s) {t : Nat} {c : Ctx} (h : s.threads t = .idle c) (ua : Bytes) :
    c.setUserAgent ua = ({ ua := ua, mc := (reqOf s.log t).mc, md := (reqOf s.log t).md } : Req).newCtx H := by
  have I := (sys_inv (MC := fun _ _ => True) (MD := fun _ _ => True) hr (fun _ _ => ⟨trivial, trivial⟩)).idle t c h
  rw [newCtx_eq, ← I.mc, ← I.md]
  rfl

/-- A used context: user agent, header, detection, then another user agent. -/
example : ((Demo.shared.exec Demo.tables Demo.hash 1 (.setUserAgent (ascii "curl/7.1"))).threads 1) =
    .idle (({ ua := ascii "curl/7.1" } : Req).newCtx Demo.hash) := by rfl

/-! ### C18 -/

/-- The filter last set by `log` for context `t`: Reset sets the all-types filter, nothing else but FilterClientType changes it. -/
def clientFilter (t : Nat) : List Event → ClientType
  | [] => ClientTypeAll
  | .call t' (.filterClientType m) :: older => if t' = t then m else clientFilter t older
  | .call t' .reset :: older => if t' = t then ClientTypeAll else clientFilter t older
  | _ :: older => clientFilter t older

def deviceFilter (t : Nat) : List Event → DeviceType
  | [] => DeviceTypeAll
  | .call t' (.filterDeviceType m) :: older => if t' = t then m else deviceFilter t older
  | .call t' .reset :: older => if t' = t then DeviceTypeAll else deviceFilter t older
  | _ :: older => deviceFilter t older

theorem reqOf_filters (t : Nat) : ∀ l : List Event, (reqOf l.reverse t).mc = clientFilter t l ∧ (reqOf l.reverse t).md = deviceFilter t l
  | [] => ⟨rfl, rfl⟩
  | e :: older => by
    have ih := reqOf_filters t older
    rw [List.reverse_cons, reqOf_snoc]
    cases e with
    | ret t' op r => exact ih
    | call t' op =>
      by_cases h : t' = t
      · subst h
        cases op with
        | setRequestedWith h' =>
          simp only [Req.event, if_true, Req.call]
          split <;> exact ih
        | setUserAgent ua => simp only [Req.event, if_true]; exact ih
        | filterClientType m => simp [Req.event, Req.call, clientFilter, deviceFilter, ih]
        | filterDeviceType m => simp [Req.event, Req.call, clientFilter, deviceFilter, ih]
        | reset => simp [Req.event, Req.call, clientFilter, deviceFilter]
        | get g => simp only [Req.event, if_true]; exact ih
      · cases op <;> simp only [Req.event, if_neg h, clientFilter, deviceFilter] <;> exact ih

/-- C18: between calls the filters of every context are the last ones set on it (or all types, if none was set since creation or Reset), in
every interleaving: SetUserAgent, SetRequestedWith, getters, panics, cache hits and other contexts never change them. -/
theorem C18_filters_persist {s : Sys} (hr : Sys.Reach T H s) {t : Nat} {c : Ctx} (h : s.threads t = .idle c) :
    c.maskClientType = clientFilter t s.log.reverse ∧ c.maskDeviceType = deviceFilter t s.log.reverse := by
  have I := (sys_inv (MC := fun _ _ => True) (MD := fun _ _ => True) hr (fun _ _ => ⟨trivial, trivial⟩)).idle t c h
  have := reqOf_filters t s.log.reverse
  rw [List.reverse_reverse] at this
  exact ⟨I.mc.trans this.1, I.md.trans this.2⟩

/-- Filters set, then user agent, detection with a cache hit, and another user agent. -/
def Demo.filtered : Sys := Sys.init.execs Demo.tables Demo.hash
  [(0, .setUserAgent Demo.phone), (0, .get .browser), (0, .get .brand), (1, .filterClientType ClientTypeLibrary), (1, .filterDeviceType DeviceTypeTV),
   (1, .setUserAgent Demo.phone), (1, .get .browser), (1, .get .model), (1, .setUserAgent (ascii "curl/7.1"))]

example : clientFilter 1 Demo.filtered.log.reverse = ClientTypeLibrary ∧ deviceFilter 1 Demo.filtered.log.reverse = DeviceTypeTV ∧
    clientFilter 0 Demo.filtered.log.reverse = ClientTypeAll := by decide +kernel

/-! ### C21 -/

/-- Answers of a sequence of getter calls on one context when the cache never finds anything. -/
def answersNull (T : Tables) : List Getter → Ctx → List (Option Ans)
  | [], _ => []
  | g :: gs, c => (g.prog T c).runNull.2 :: answersNull T gs (g.prog T c).runNull.1

theorem answersNull_eq {q : Req} : ∀ (gs : List Getter) (n : Nat) (c : Ctx), CInv T (onlyC q) (onlyD q) H q c → MInv T q n c →
    n + gs.length * growth T q.ua + modelBound T q.ua < 2 ^ 32 → (∀ g ∈ gs, uncached T H g q ≠ none) →
    answersNull T gs c = gs.map fun g => uncached T H g q
  | [], _, _, _, _, _, _ => rfl
  | g :: gs, n, c, hc, hm, hl, hok => by
    have hg := hok g (by simp)
    have hpost := Prog.Safe.runNull (fun _ => trivial) (tri_getter (T := T) (H := H) (MC := onlyC q) (MD := onlyD q) (q := q) rfl rfl g c hc)
    have hl' : n + gs.length * growth T q.ua + growth T q.ua + modelBound T q.ua < 2 ^ 32 := by
      simp only [List.length_cons, Nat.add_mul, Nat.one_mul] at hl
      omega
    -- the answer
    have hans : (g.prog T c).runNull.2 = uncached T H g q := by
      by_cases hgm : g = .model
      · subst hgm
        have hD : devOut T q.md q.ua ≠ none := fun h => hg (uncached_model_none h)
        have hgood : GoodD T (onlyD q) q.ua := by rintro m rfl; exact hD
        have hdt := Prog.Safe.runNull (fun _ => trivial) (tri_getDeviceType (T := T) (H := H) (MC := onlyC q) (MD := onlyD q) (q := q) rfl c hc)
        obtain ⟨m, o, -, -, hr⟩ := hdt.2 hgood
        have hne : ((getDeviceType T).null c).2 ≠ none := by
          show (getDeviceType T c).runNull.2 ≠ none
          rw [hr]; simp
        obtain ⟨mo, c', h1, -, h2⟩ := null_getModel hm hc.src hc.md (by omega) (reader_getDeviceType c hne).1
        obtain ⟨mo', h3, h4⟩ := uncached_model (T := T) (H := H) (q := q) (by omega) hD
        rw [h4, ← h1.unique h3]
        show ((M.map _ (getModel T)).null c).2 = _
        rw [null_map, h2]
        rfl
      · rw [uncached_eq g hgm] at hg ⊢
        refine hpost.uniform hgm ⟨?_, ?_, ?_⟩ (fun _ h => h) (fun _ h => h)
        · rintro h m rfl h'; exact hg (outAns_none_C h h')
        · rintro h h'; exact hg (outAns_none_O h h')
        · rintro h m rfl h'; exact hg (outAns_none_D h h')
    have hne : ((g.prog T).null c).2 ≠ none := by
      show (g.prog T c).runNull.2 ≠ none
      rw [hans]; exact hg
    have hm' := (hm.getter hc.src hc.md (by omega) g hne).1
    rw [answersNull, List.map_cons, hans, answersNull_eq gs _ _ hpost.cinv hm' (by omega) fun g h => hok g (List.mem_cons_of_mem _ h)]

/-- C21: any sequence of getter calls on a context, GetModel included, gives each getter the answer it gives when called first on a new
context. Every getter called must not panic when called first; the bound only excludes buffers of 4 GiB. Without cache hits (with
hits: `C21_shared`). -/
theorem C21_order (q : Req) (gs : List Getter) (hok : ∀ g ∈ gs, uncached T H g q ≠ none)
    (hsize : gs.length * growth T q.ua + modelBound T q.ua < 2 ^ 32) :
    answersNull T gs (q.newCtx H) = gs.map fun g => uncached T H g q := by
  refine answersNull_eq gs 0 _ ?_ (MInv.new q) (by omega) hok
  rw [newCtx_eq]
  exact cinv_fresh _ _ q

/-- A phone whose OS version contains an underscore: the version getter appends to the buffer which also holds the model. -/
def Demo.phone2 : Bytes := ascii "Mozilla/5.0 (Linux; Android 10_1; Pixel 4) Chrome/96.0.4 Mobile"

def Demo.calls : List Getter := [.model, .osVersionString, .model, .browser, .osVersion, .osVersionString, .model, .deviceType, .brand, .model]

/-- The theorem applies to it. -/
example : answersNull Demo.tables Demo.calls (({ ua := Demo.phone2 } : Req).newCtx Demo.hash) =
    Demo.calls.map fun g => uncached Demo.tables Demo.hash g { ua := Demo.phone2 } :=
  C21_order _ _ (by decide +kernel) (by decide +kernel)

example : uncached Demo.tables Demo.hash .model { ua := Demo.phone2 } = some (.text (ascii "Pixel 4")) ∧
    uncached Demo.tables Demo.hash .osVersionString { ua := Demo.phone2 } = some (.text (ascii "10.1")) := by decide +kernel

/-- C21 with a shared cache: in every interleaving over any honest cache, two calls of the same getter (not GetModel) for the same
user agent, header and filters return the same answer, whichever contexts made them and whatever happened in between, provided all
getter calls for this user agent use these filters. -/
theorem C21_shared {s : Sys} (hr : Sys.Reach T H s) {pre post pre' post' : List Event} {t t' : Nat} {g : Getter} {r r' : Option (Option Ans)}
    (hlog : s.log = pre ++ .ret t (.get g) r :: post) (hlog' : s.log = pre' ++ .ret t' (.get g) r' :: post') (hg : g ≠ .model)
    (hq : reqOf pre t = reqOf pre' t')
    (hf : ∀ q', Used pre q' ∨ Used pre' q' → q'.ua = (reqOf pre t).ua → q'.mc = (reqOf pre t).mc ∧ q'.md = (reqOf pre t).md)
    (hok : uncached T H g (reqOf pre t) ≠ none) : r = r' := by
  obtain ⟨a, ha⟩ := Option.ne_none_iff_exists'.mp hok
  rw [C19_common_filter hr hlog hg (fun q' h => hf q' (.inl h)) ha,
    C19_common_filter hr hlog' hg (fun q' h hu => by rw [← hq] at hu ⊢; exact hf q' (.inr h) hu) (by rw [← hq]; exact ha)]

/-! ### C29, GetModel -/

/-- C29, GetModel: the X-Requested-With header does not influence the model. -/
theorem C29_model_ignored (q : Req) (h : Bytes) (hsize : modelBound T q.ua < 2 ^ 32) :
    uncached T H .model { q with header := h } = uncached T H .model q := by
  by_cases hD : devOut T q.md q.ua = none
  · rw [uncached_model_none hD, uncached_model_none (q := { q with header := h }) hD]
  · obtain ⟨mo, h1, h2⟩ := uncached_model (T := T) (H := H) (q := q) hsize hD
    obtain ⟨mo', h3, h4⟩ := uncached_model (T := T) (H := H) (q := { q with header := h }) hsize hD
    rw [h2, h4, h1.unique h3]

example : uncached Demo.tables Demo.hash .model { ua := Demo.phone, header := ascii "org.telegram" } = some (.text (ascii "Pixel 4")) := by
  refine (C29_model_ignored { ua := Demo.phone } (ascii "org.telegram") (by decide +kernel)).trans ?_
  decide +kernel

end
end Verif
