import Verif.Proofs.Amort
import Verif.Props.Panics
/-
C67: how often a context turns to the cache for one user agent.
-/
namespace Verif

section
variable {T : Tables} {H : Bytes → UInt64}

theorem session_start (c : Ctx) (ua : Bytes) (n : Nat) : (c.setUserAgent ua).check n = false := by
  exact Bitset.check_zero n

/-- C67, what holds: after SetUserAgent, any number of getter calls on the context, in any order and with any filters and headers set in
between, make at most three lookups and three stores in total, if the cache never answers `nil, nil` and never forgets a part of the
detection (client, device, OS) that it gave or took before. -/
theorem C67_accesses_partial {c c' : Ctx} {ua : Bytes} {ops : List Op} {tr : List Acc} (h : AskedAll T H (c.setUserAgent ua) ops tr c')
    (hs : ∀ op ∈ ops, op.Stays) (hg : Growing tr) : gots tr ≤ 3 ∧ puts tr ≤ 3 := by
  have := led_all (m := true) h hs (K := fun _ => false) (fun n _ => by rw [session_start]; simp) (growing_know tr [] hg (by simp))
  have h3 : cnt detFlags c' ≤ 3 := List.countP_le_length
  omega

/-- C67, what holds: the same for a context which alone asks about its user agent, whatever of its own entries the cache gives back or
has lost. -/
theorem C67_alone_partial {c c' : Ctx} {ua : Bytes} {ops : List Op} {tr : List Acc} (h : AskedAll T H (c.setUserAgent ua) ops tr c')
    (hs : ∀ op ∈ ops, op.Stays) (hg : OwnOnly tr) : gots tr ≤ 3 ∧ puts tr ≤ 3 := by
  have := led_all (m := false) h hs (K := fun _ => false) (fun n _ => by simp) (own_know tr [] hg (by simp))
  have h3 : cnt detFlags c' ≤ 3 := List.countP_le_length
  omega

/-! ### Not with every honest cache -/

/-- Some context, asked about `ua`, stored `e`. -/
def StoredFor (T : Tables) (H : Bytes → UInt64) (ua : Bytes) (e : CacheEntry) : Prop :=
  ∃ ops tr c', AskedAll T H (newCtx.setUserAgent ua) ops tr c' ∧ (∀ op ∈ ops, op.Stays) ∧ (∀ x ∈ tr, x ≠ .got .nilEntry) ∧ .put e ∈ tr

/-- C67 as one would like it: with answers that are errors or entries stored for the same user agent, three lookups are enough. -/
def C67Claim : Prop := ∀ (T : Tables) (H : Bytes → UInt64) (ua : Bytes) (ops : List Op) (tr : List Acc) (c' : Ctx),
  AskedAll T H (newCtx.setUserAgent ua) ops tr c' → (∀ op ∈ ops, op.Stays) → (∀ x ∈ tr, ∀ r, x = .got r → r = .miss ∨ ∃ e, r = .hit e ∧ StoredFor T H ua e) →
  gots tr ≤ 3

theorem Prog.Run.bind {α β : Type} {p : Prog α} {f : α → Prog β} {tr tr' : List Acc} {x : α} {y : β} (h : p.Run tr x) (h' : (f x).Run tr' y) : (p.bind f).Run (tr ++ tr') y := by
  induction h with
  | ret => exact h'
  | get _ ih => exact .get (ih h')
  | set _ ih => exact .set (ih h')

theorem M.run_bind {α β : Type} {x : M α} {f : α → M β} {c c' : Ctx} {a : α} {tr tr' : List Acc} {r : Ctx × Option β} (h : (x c).Run tr (c', some a)) (h' : (f a c').Run tr' r) :
    ((x >>= f) c).Run (tr ++ tr') r := by
  rw [M.bind_apply]
  exact h.bind h'

/-- A part which the context does not know and the entry does. -/
theorem run_ensure {flag : Nat} {body : M Bool} {c : Ctx} {e : CacheEntry} (hc : c.check flag = false) (he : e.bits.check flag = true) :
    (ensure flag (parseFrame flag body) c).Run [.got (.hit e)] (c.fromCache e, some ()) := by
  have h1 : (parseFrame flag body c).Run [.got (.hit e)] (c.fromCache e, some true) := by
    unfold parseFrame
    simp only [M.ctx_bind, M.cacheGet_bind]
    refine .get ?_
    simp only [he, if_true]
    exact .ret
  unfold ensure
  rw [M.ctx_bind]
  unfold M.when
  rw [if_pos (by simp [hc]), M.bind_apply]
  exact h1.bind (tr' := []) .ret

theorem run_client {c : Ctx} {e : CacheEntry} (hc : c.check flagClientDetect = false) (he : e.bits.check flagClientDetect = true) :
    ∃ r, ((Op.get .clientType).prog T H c).Run [.got (.hit e)] (c.fromCache e, r) :=
  ⟨_, M.run_bind (tr' := []) (M.run_bind (tr' := []) (M.run_bind (tr' := []) (run_ensure hc he) .ret) .ret) .ret⟩

theorem run_device {c : Ctx} {e : CacheEntry} (hc : c.check flagDeviceDetect = false) (he : e.bits.check flagDeviceDetect = true) :
    ∃ r, ((Op.get .deviceType).prog T H c).Run [.got (.hit e)] (c.fromCache e, r) := by
  have h : ∃ d, ((M.ctx >>= fun c => if c.check flagDeviceForceDesktop then pure DeviceTypeNotebook else pure c.deviceType : M DeviceType) (c.fromCache e)).Run []
      (c.fromCache e, some d) := by
    rw [M.ctx_bind]
    split <;> exact ⟨_, .ret⟩
  obtain ⟨d, h⟩ := h
  exact ⟨_, M.run_bind (tr' := []) (M.run_bind (tr' := []) (M.run_bind (tr' := []) (run_ensure hc he) h) .ret) .ret⟩

/-- Two entries, one without the device, one without the client, given in turn: every call is a lookup. -/
theorem turns {e1 e2 : CacheEntry} (h1 : e1.bits.check flagClientDetect = true) (h1' : e1.bits.check flagDeviceDetect = false)
    (h2 : e2.bits.check flagDeviceDetect = true) (h2' : e2.bits.check flagClientDetect = false) : ∀ (n : Nat) (c : Ctx), c.check flagClientDetect = false →
    ∃ ops tr c', AskedAll T H c ops tr c' ∧ (∀ op ∈ ops, op.Stays) ∧ (∀ x ∈ tr, x = .got (.hit e1) ∨ x = .got (.hit e2)) ∧ gots tr = 2 * n
  | 0, c, _ => ⟨[], [], c, .nil, by simp, by simp, rfl⟩
  | n + 1, c, hc => by
    obtain ⟨r, hr⟩ := run_client (T := T) (H := H) hc h1
    obtain ⟨r', hr'⟩ := run_device (T := T) (H := H) (c := c.fromCache e1) h1' h2
    obtain ⟨ops, tr, c', ha, hs, ht, hg⟩ := turns h1 h1' h2 h2' n ((c.fromCache e1).fromCache e2) h2'
    refine ⟨_, _, c', .cons hr (.cons hr' ha), ?_, ?_, ?_⟩
    · simp only [List.mem_cons]
      rintro op (rfl | rfl | h)
      · trivial
      · trivial
      · exact hs op h
    · simp only [List.singleton_append, List.mem_cons]
      rintro x (rfl | rfl | h)
      · exact .inl rfl
      · exact .inr rfl
      · exact ht x h
    · simp only [List.singleton_append]
      show gots (.got (.hit e1) :: .got (.hit e2) :: tr) = _
      have : gots (.got (.hit e1) :: .got (.hit e2) :: tr) = gots tr + 1 + 1 := by simp [gots]
      omega
end

/-- Accesses of a run without hits. -/
def Prog.trNull {α : Type} : Prog α → List Acc
  | .ret _ => []
  | .get _ k => .got .miss :: (k .miss).trNull
  | .set _ e k => .put e :: k.trNull

theorem Prog.run_null {α : Type} : ∀ p : Prog α, p.Run p.trNull p.runNull
  | .ret _ => .ret
  | .get _ k => .get (Prog.run_null (k .miss))
  | .set _ _ k => .set (Prog.run_null k)

theorem Prog.trNull_ne {α : Type} : ∀ (p : Prog α), ∀ x ∈ p.trNull, x = .got .miss ∨ ∃ e, x = .put e
  | .ret _, _, h => by cases h
  | .get _ k, x, h => by
    rcases List.mem_cons.mp h with rfl | h
    · exact .inl rfl
    · exact Prog.trNull_ne (k .miss) x h
  | .set _ e k, x, h => by
    rcases List.mem_cons.mp h with rfl | h
    · exact .inr ⟨e, rfl⟩
    · exact Prog.trNull_ne k x h

/-- What one call stores when it finds nothing. -/
theorem storedFor_null {T : Tables} {H : Bytes → UInt64} {ua : Bytes} {op : Op} (hs : op.Stays) {e : CacheEntry}
    (h : Acc.put e ∈ (op.prog T H (newCtx.setUserAgent ua)).trNull) : StoredFor T H ua e := by
  refine ⟨[op], _, _, .cons (r := (op.prog T H (newCtx.setUserAgent ua)).runNull.2) (Prog.run_null _) .nil, by simpa using hs, ?_, by simpa using h⟩
  intro x hx
  rw [List.append_nil] at hx
  rcases Prog.trNull_ne _ x hx with rfl | ⟨e, rfl⟩ <;> simp

/-- A phone. -/
def Demo.handy : Bytes := ascii "Android 9; Pixel 4 Chrome/100"

/-- What the context stores which is asked for the client only, and the one which is asked for the device only. -/
def Demo.half (g : Getter) : CacheEntry := ((((Op.get g).prog Demo.tables Demo.hash (newCtx.setUserAgent Demo.handy)).trNull.filterMap fun
  | .put e => some e
  | _ => none).getLast?).getD {}

theorem Demo.half_stored (g : Getter) (h : (((Op.get g).prog Demo.tables Demo.hash (newCtx.setUserAgent Demo.handy)).trNull.filterMap fun
    | .put e => some e
    | _ => none) ≠ []) : StoredFor Demo.tables Demo.hash Demo.handy (Demo.half g) := by
  refine storedFor_null (op := .get g) trivial ?_
  have hm : Demo.half g ∈ ((Op.get g).prog Demo.tables Demo.hash (newCtx.setUserAgent Demo.handy)).trNull.filterMap fun
      | .put e => some e
      | _ => none := by
    unfold Demo.half
    rw [List.getLast?_eq_some_getLast h]
    exact List.getLast_mem h
  obtain ⟨x, hx, he⟩ := List.mem_filterMap.mp hm
  cases x with
  | got _ => cases he
  | put e =>
    simp only [Option.some.injEq] at he
    rw [← he]; exact hx

/-! Runs that meet the hypotheses. -/

/-- The calls `ops`, finding nothing. -/
def nullRun (T : Tables) (H : Bytes → UInt64) : List Op → Ctx → List Acc × Ctx
  | [], c => ([], c)
  | op :: ops, c => ((op.prog T H c).trNull ++ (nullRun T H ops (op.prog T H c).runNull.1).1, (nullRun T H ops (op.prog T H c).runNull.1).2)

theorem nullRun_asked {T : Tables} {H : Bytes → UInt64} : ∀ (ops : List Op) (c : Ctx), AskedAll T H c ops (nullRun T H ops c).1 (nullRun T H ops c).2
  | [], _ => .nil
  | op :: ops, c => .cons (r := (op.prog T H c).runNull.2) (Prog.run_null _) (nullRun_asked ops _)

theorem nullRun_no_hit {T : Tables} {H : Bytes → UInt64} : ∀ (ops : List Op) (c : Ctx), ∀ x ∈ (nullRun T H ops c).1, x = .got .miss ∨ ∃ e, x = .put e
  | [], _, _, h => by cases h
  | op :: ops, c, x, h => by
    rcases List.mem_append.mp h with h | h
    · exact Prog.trNull_ne _ x h
    · exact nullRun_no_hit ops _ x h

/-- A trace whose only hit is the first access is growing. -/
theorem growing_first {e : CacheEntry} {tr : List Acc} (h : ∀ x ∈ tr, x = .got .miss ∨ ∃ e, x = .put e) : Growing (.got (.hit e) :: tr) := by
  refine ⟨?_, ?_⟩
  · intro hm
    rcases List.mem_cons.mp hm with hm | hm
    · cases hm
    · rcases h _ hm with h | ⟨_, h⟩ <;> cases h
  · intro pre post e' he x hx
    cases pre with
    | nil => cases hx
    | cons y pre =>
      simp only [List.cons_append, List.cons.injEq] at he
      rcases h (.got (.hit e')) (by rw [he.2]; simp) with h | ⟨_, h⟩ <;> cases h

/-- A context finds the client in the cache, then nothing more: it looks three times, however often it is asked. -/
def Demo.askAll : List Op := [.get .deviceType, .setRequestedWith (ascii "org.telegram"), .get .browser, .get .os, .get .model, .filterClientType 2, .get .clientType, .get .brand]

example : ∃ tr c', AskedAll Demo.tables Demo.hash (newCtx.setUserAgent Demo.handy) (.get .clientType :: Demo.askAll) tr c' ∧ Growing tr ∧
    (∀ op ∈ Op.get .clientType :: Demo.askAll, op.Stays) ∧ gots tr = 3 ∧ puts tr = 2 := by
  obtain ⟨r, hr⟩ := run_client (T := Demo.tables) (H := Demo.hash) (c := newCtx.setUserAgent Demo.handy) (e := Demo.half .clientType) (session_start _ _ _) (by decide +kernel)
  refine ⟨_, _, .cons hr (nullRun_asked _ _), growing_first (nullRun_no_hit _ _), ?_, by decide +kernel, by decide +kernel⟩
  simp [Demo.askAll, Op.Stays]

/-- Alone, and its entry is dropped each time: three stores. -/
example : ∃ tr c', AskedAll Demo.tables Demo.hash (newCtx.setUserAgent Demo.handy) Demo.askAll tr c' ∧ OwnOnly tr ∧ gots tr = 3 ∧ puts tr = 3 := by
  refine ⟨_, _, nullRun_asked _ _, ⟨?_, ?_⟩, by decide +kernel, by decide +kernel⟩
  · intro h
    rcases nullRun_no_hit _ _ _ h with h | ⟨_, h⟩ <;> cases h
  · intro pre post e he
    rcases nullRun_no_hit Demo.askAll (newCtx.setUserAgent Demo.handy) (.got (.hit e)) (by rw [he]; simp) with h | ⟨_, h⟩ <;> cases h

/-- C67, as one would like it, is false, for any bound: a context loads an entry as a whole, with the flags of the context that stored
it, and so forgets what it knew itself. For every `n` there are 2n getter calls that make 2n lookups, each answered by an entry which a
context stored for the same user agent. -/
theorem C67_unbounded (n : Nat) : ∃ ops tr c', AskedAll Demo.tables Demo.hash (newCtx.setUserAgent Demo.handy) ops tr c' ∧ (∀ op ∈ ops, op.Stays) ∧
    (∀ x ∈ tr, ∃ e, x = .got (.hit e) ∧ StoredFor Demo.tables Demo.hash Demo.handy e) ∧ gots tr = 2 * n := by
  obtain ⟨ops, tr, c', h, hs, ht, hg⟩ := turns (T := Demo.tables) (H := Demo.hash) (e1 := Demo.half .clientType) (e2 := Demo.half .deviceType)
    (by decide +kernel) (by decide +kernel) (by decide +kernel) (by decide +kernel) n (newCtx.setUserAgent Demo.handy) (session_start _ _ _)
  refine ⟨ops, tr, c', h, hs, fun x hx => ?_, hg⟩
  rcases ht x hx with rfl | rfl
  · exact ⟨_, rfl, Demo.half_stored _ (List.ne_nil_of_length_pos (by decide +kernel))⟩
  · exact ⟨_, rfl, Demo.half_stored _ (List.ne_nil_of_length_pos (by decide +kernel))⟩

theorem C67_refuted : ¬ C67Claim := by
  intro h
  obtain ⟨ops, tr, c', ha, hs, ht, hg⟩ := C67_unbounded 2
  have := h _ _ _ ops tr c' ha hs fun x hx r hr => by
    obtain ⟨e, he, hst⟩ := ht x hx
    rw [hr] at he
    cases he
    exact .inr ⟨e, rfl, hst⟩
  omega

end Verif
