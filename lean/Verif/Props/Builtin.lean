import Verif.Proofs.Builtin
import Verif.Proofs.BuiltinExec
import Verif.Props.Transparency
import Verif.Proofs.NullModel
import Verif.Props.Shipped
/-
C64: whole programs with the built-in cache. The cache finds entries by the 64-bit hash of the user agent and never looks at the user agent
itself.
-/
namespace Verif

section
variable {T : Tables} {H : Bytes → UInt64}

/-- C64, no panic: the built-in cache never panics, whatever contexts do, however the clock runs and whenever the cleaner runs. -/
theorem C64_no_panic {s : BSys} (hr : BSys.Reach T H s) (t : Nat) : s.threads t ≠ .crashed := by
  obtain ⟨sets, s', -, I⟩ := builtin_inv (G := fun _ => False) hr (fun u h => h.elim)
  intro h
  have := I.thr t
  rw [h] at this
  cases this

/-- C64, refinement: an answer for a user agent whose hash no other user agent asked about so far has is an answer that an honest cache would allow, in an execution
with the same configurations. Theorems about executions with honest caches (C19, C22, C24, C35, C57, …) thereby hold with the built-in cache. -/
theorem C64_honest {s : BSys} (hr : BSys.Reach T H s) {pre post : List Event} {t : Nat} {g : Getter} {r : Option (Option Ans)}
    (hlog : s.log = pre ++ .ret t (.get g) r :: post) (ha : Alone H pre (reqOf pre t).ua) :
    ∃ s' pre', Sys.Reach T H s' ∧ s'.log = pre' ++ [.ret t (.get g) r] ∧ pre'.Sublist pre ∧ (∀ t', reqOf pre' t' = reqOf pre t') ∧
      ∀ q, Used pre' q → Used pre q := by
  obtain ⟨s1, hr1, hl1⟩ := breach_prefix hr (pre ++ [.ret t (.get g) r]) post (by rw [hlog]; simp)
  obtain ⟨sets, s', hs', I⟩ := builtin_inv (G := Alone H pre) hr1 (fun u hu q hq => hu q (by rw [hl1] at hq; exact hq.of_ret))
  have hk := I.log
  rw [hl1] at hk
  obtain ⟨pre', post', e1, e2⟩ := Kept.answer (post := []) ha hk
  obtain ⟨s2, hr2, hl2⟩ := reach_prefix hs' (pre' ++ [.ret t (.get g) r]) post' (by rw [e1]; simp)
  exact ⟨s2, pre', hr2, hl2, e2.sublist, e2.reqOf, fun q => e2.used⟩

/-- The claim of C64 at its full strength: with the built-in cache, all uses of a user agent under one filter, getters other than GetModel answer
as without a cache. -/
def C64Claim (T : Tables) (H : Bytes → UInt64) : Prop :=
  ∀ s, BSys.Reach T H s → ∀ pre post t g r a, s.log = pre ++ .ret t (.get g) r :: post → g ≠ .model →
    (∀ q', Used pre q' → q'.ua = (reqOf pre t).ua → q'.mc = (reqOf pre t).mc ∧ q'.md = (reqOf pre t).md) →
    uncached T H g (reqOf pre t) = some a → r = some (some a)

/-- C64, partial: it holds for user agents whose hash no other user agent asked about so far has. Missing: user agents that share a hash. -/
theorem C64_as_uncached_partial {s : BSys} (hr : BSys.Reach T H s) {pre post : List Event} {t : Nat} {g : Getter} {r : Option (Option Ans)}
    (hlog : s.log = pre ++ .ret t (.get g) r :: post) (ha : Alone H pre (reqOf pre t).ua) (hg : g ≠ .model)
    (hf : ∀ q', Used pre q' → q'.ua = (reqOf pre t).ua → q'.mc = (reqOf pre t).mc ∧ q'.md = (reqOf pre t).md)
    {a : Ans} (hok : uncached T H g (reqOf pre t) = some a) : r = some (some a) := by
  obtain ⟨s', pre', h1, h2, h3, h4, h5⟩ := C64_honest hr hlog ha
  refine C19_common_filter h1 h2 hg ?_ (by rw [h4]; exact hok)
  intro q' hu
  rw [h4]
  exact hf q' (h5 q' hu)

/-! ### Collisions -/

theorem clientType_prog (c : Ctx) (hb : c.check flagClientDetect = false) {c1 : Ctx} {o : Option Bool} (hd : detectClient T c = (c1, o)) :
    ∃ f, (Op.get .clientType).prog T H c = .get c.src f ∧
      f .miss = .set (c1.setBit flagClientDetect).src (CacheEntry.fromCtx {} (c1.setBit flagClientDetect))
        (.ret (c1.setBit flagClientDetect, o.map fun _ => some (.clientType c1.clientType))) ∧
      ∀ e : CacheEntry, e.bits.check flagClientDetect = true → f (.hit e) = .ret (c.fromCache e, some (some (.clientType e.clientType))) := by
  have he : ensure flagClientDetect (parseClient T) c = (parseClient T >>= fun _ => pure ()) c := by
    unfold ensure
    show M.when _ _ c = _
    unfold M.when
    rw [if_pos (by rw [hb]; decide)]
  have hp : (Op.get .clientType).prog T H c = (((ensure flagClientDetect (parseClient T) c).bind _).bind _).bind _ := rfl
  rw [he] at hp
  rw [hp]
  refine ⟨_, rfl, ?_, ?_⟩
  · show (((((M.defer (fun _ => finishParse flagClientDetect) (M.lift (detectClient T)) c).bind _).bind _).bind _).bind _).bind _ = _
    unfold M.defer M.lift
    rw [hd]
    cases o <;> rfl
  · intro e hc
    show (((((if e.bits.check flagClientDetect = true then _ else _ : M Bool) c).bind _).bind _).bind _).bind _ = _
    rw [if_pos hc]
    rfl

theorem uncached_clientType {q : Req} {x : ClientType} (h : uncached T H .clientType q = some (.clientType x)) :
    ∃ c1 y, detectClient T (q.newCtx H) = (c1, some y) ∧ c1.clientType = x := by
  have hb : (q.newCtx H).check flagClientDetect = false := by rw [newCtx_eq]; simp [Ctx.check]
  obtain ⟨f, h1, h2, -⟩ := clientType_prog (T := T) (H := H) (q.newCtx H) hb (c1 := (detectClient T (q.newCtx H)).1) (o := (detectClient T (q.newCtx H)).2) rfl
  have h3 : (((Op.get .clientType).prog T H (q.newCtx H)).runNull).2 = some (some (.clientType x)) := by
    have : (Op.get .clientType).prog T H = M.map some (Getter.clientType.prog T) := rfl
    rw [this]
    unfold uncached at h
    unfold M.map
    rw [M.bind_apply, Prog.runNull_bind]
    generalize (Getter.clientType.prog T (q.newCtx H)).runNull = r at h ⊢
    obtain ⟨c, o⟩ := r
    dsimp only at h
    subst h
    rfl
  rw [h1, Prog.runNull, h2] at h3
  simp only [Prog.runNull, Option.map_eq_some_iff] at h3
  obtain ⟨y, h4, h5⟩ := h3
  exact ⟨_, y, Prod.ext rfl h4, by simpa using h5⟩

/-- C64, collisions: if two user agents have the same hash, then a program that first asks for the client type of `a` and then, on another
context, for that of `b`, gets the client type of `a` twice. -/
theorem C64_collision {a b : Bytes} (hab : H a = H b) (m m' : ClientType) {x : ClientType} (hx : uncached T H .clientType { ua := a, mc := m } = some (.clientType x)) :
    ∃ s, BSys.Reach T H s ∧ s.log = [.call 0 (.filterClientType m), .ret 0 (.filterClientType m) (some none),
        .call 0 (.setUserAgent a), .ret 0 (.setUserAgent a) (some none), .call 0 (.get .clientType), .ret 0 (.get .clientType) (some (some (.clientType x))),
        .call 1 (.filterClientType m'), .ret 1 (.filterClientType m') (some none), .call 1 (.setUserAgent b), .ret 1 (.setUserAgent b) (some none),
        .call 1 (.get .clientType), .ret 1 (.get .clientType) (some (some (.clientType x)))] := by
  obtain ⟨c1, y, hd, rfl⟩ := uncached_clientType hx
  refine ⟨_, breach_execs (now := 0) [(0, .filterClientType m), (0, .setUserAgent a), (0, .get .clientType), (1, .filterClientType m'), (1, .setUserAgent b), (1, .get .clientType)] .init, ?_⟩
  have hs : c1.src = a := by
    have := (keeps_detectClient (T := T) (({ ua := a, mc := m } : Req).newCtx H)).src
    rw [hd, newCtx_eq] at this
    exact this
  have hca : (newCtx.filterClientType m).setUserAgent a = ({ ua := a, mc := m } : Req).newCtx H := by
    rw [newCtx_eq]; simp [Ctx.setUserAgent, Ctx.filterClientType, newCtx, Ctx.reset0, Version.reset, Req.hint]
  have hb : ∀ m a, ((newCtx.filterClientType m).setUserAgent a).check flagClientDetect = false := fun m a => by
    simp [Ctx.setUserAgent, Ctx.filterClientType, newCtx, Ctx.reset0, Version.reset, Ctx.check]
  obtain ⟨f, h1, h2, -⟩ := clientType_prog (T := T) (H := H) ((newCtx.filterClientType m).setUserAgent a) (hb _ _) (c1 := c1) (o := some y) (by rw [hca, hd])
  obtain ⟨f', h1', -, h3'⟩ := clientType_prog (T := T) (H := H) ((newCtx.filterClientType m').setUserAgent b) (hb _ _) rfl
  generalize hci : c1.setBit flagClientDetect = ci at h2
  have hck : (CacheEntry.fromCtx {} ci).bits.check flagClientDetect = true := by
    subst hci
    show (c1.setBit flagClientDetect).check flagClientDetect = true
    rw [Ctx.check_setBit _ _ _ (by decide)]; simp
  have hct : ci.clientType = c1.clientType := by rw [← hci]; rfl
  have hcs : ci.src = a := by rw [← hci]; exact hs
  obtain ⟨e0, he0⟩ : ∃ e : CacheEntry, e = { (CacheEntry.fromCtx {} ci) with hkey := H a, timestamp := 0 } := ⟨_, rfl⟩
  have hk0 : e0.bits.check flagClientDetect = true := by rw [he0]; exact hck
  have hc0 : e0.clientType = c1.clientType := by rw [he0]; exact hct
  generalize hs2 : (BSys.exec T H 0 (BSys.exec T H 0 .init 0 (.filterClientType m)) 0 (.setUserAgent a)) = s2
  have t2 : s2.threads 0 = .idle ((newCtx.filterClientType m).setUserAgent a) := by rw [← hs2]; rfl
  have r2 : ((Op.get .clientType).prog T H ((newCtx.filterClientType m).setUserAgent a)).runCache H 0 s2.cache s2.next = some
      (⟨fun q => if q = 0 then e0 else default, fun h => if h = H a then some 0 else none, [0]⟩, 1, ci,
        some (some (.clientType c1.clientType))) := by
    have e1 : s2.cache = .empty := by rw [← hs2]; rfl
    have e2 : s2.next = 0 := by rw [← hs2]; rfl
    rw [e1, e2, h1]
    show (f .miss).runCache H 0 _ 0 = _
    rw [h2, hcs]
    simp only [Prog.runCache, CacheState.step, CacheState.set, CacheState.empty, Option.map_some]
    refine congrArg some (Prod.ext ?_ rfl)
    simp only [CacheState.mk.injEq]
    refine ⟨?_, rfl, rfl⟩
    funext q
    rw [he0]
    split <;> rfl
  have e3 := exec_of t2 r2
  generalize hs3 : s2.exec T H 0 0 (.get .clientType) = s3 at e3
  generalize hs5 : (BSys.exec T H 0 (BSys.exec T H 0 s3 1 (.filterClientType m')) 1 (.setUserAgent b)) = s5
  have t5 : s5.threads 1 = .idle ((newCtx.filterClientType m').setUserAgent b) := by
    rw [← hs5, e3, ← hs2]; rfl
  have r5 : ∃ c', ((Op.get .clientType).prog T H ((newCtx.filterClientType m').setUserAgent b)).runCache H 0 s5.cache s5.next = some
      (c', 1, ((newCtx.filterClientType m').setUserAgent b).fromCache { e0 with timestamp := 0 },
        some (some (.clientType c1.clientType))) := by
    have e1 : s5.cache = ⟨fun q => if q = 0 then e0 else default,
      fun h => if h = H a then some 0 else none, [0]⟩ := by rw [← hs5, e3, ← hs2]; rfl
    have e2 : s5.next = 1 := by rw [← hs5, e3, ← hs2]; rfl
    rw [e1, e2, h1']
    have hsb : ((newCtx.filterClientType m').setUserAgent b).src = b := rfl
    simp only [Prog.runCache, CacheState.get, hsb, ← hab, if_true, List.length_singleton, Nat.zero_lt_one, dite_true, List.getElem_cons_zero]
    rw [h3' { e0 with timestamp := 0 } hk0, ← hc0]
    exact ⟨_, rfl⟩
  obtain ⟨c', r5⟩ := r5
  have e5 := exec_of t5 r5
  have he : BSys.execs T H 0 .init [(0, .filterClientType m), (0, .setUserAgent a), (0, .get .clientType), (1, .filterClientType m'), (1, .setUserAgent b),
      (1, .get .clientType)] = s5.exec T H 0 1 (.get .clientType) := by rw [← hs5, ← hs3, ← hs2]; rfl
  rw [he, e5]
  show s5.log ++ _ = _
  rw [← hs5, e3, ← hs2]
  rfl

end

/-! ### The hypotheses are met -/

/-- Two contexts ask for the same user agent, a third for another one. -/
def Demo.builtin : BSys := BSys.init.execs Demo.tables fnv1 5 [(0, .setUserAgent (ascii "Chrome/96.0 Pixel")), (0, .get .browser), (2, .setUserAgent (ascii "curl/7.1")),
  (2, .get .browser), (1, .setUserAgent (ascii "Chrome/96.0 Pixel")), (1, .get .browser)]

theorem Demo.builtin_reach : BSys.Reach Demo.tables fnv1 Demo.builtin := breach_execs _ .init

theorem Demo.builtin_alone : Alone fnv1 (Demo.builtin.log.take 11) (reqOf (Demo.builtin.log.take 11) 1).ua := by
  have : ∀ q ∈ usedList [] (Demo.builtin.log.take 11), fnv1 q.ua = fnv1 (reqOf (Demo.builtin.log.take 11) 1).ua → q.ua = (reqOf (Demo.builtin.log.take 11) 1).ua := by
    decide +kernel
  exact fun q h => this q (used_mem h)

/-- C64_as_uncached_partial applies to that run. -/
example (r : Option (Option Ans)) (h : Demo.builtin.log = Demo.builtin.log.take 11 ++ .ret 1 (.get .browser) r :: []) :
    r = some (some (.text (ascii "Chrome"))) := by
  have hu : uncached Demo.tables fnv1 .browser (reqOf (Demo.builtin.log.take 11) 1) = some (.text (ascii "Chrome")) := by decide +kernel
  refine C64_as_uncached_partial Demo.builtin_reach h Demo.builtin_alone (by decide) ?_ hu
  have : ∀ q' ∈ usedList [] (Demo.builtin.log.take 11), q'.mc = (reqOf (Demo.builtin.log.take 11) 1).mc ∧ q'.md = (reqOf (Demo.builtin.log.take 11) 1).md := by
    decide +kernel
  exact fun q' h1 _ => this q' (used_mem h1)

/-- And the last answer of that run is of this form. -/
example : Demo.builtin.log = Demo.builtin.log.take 11 ++ .ret 1 (.get .browser) (some (some (.text (ascii "Chrome")))) :: [] := by decide +kernel

end Verif
