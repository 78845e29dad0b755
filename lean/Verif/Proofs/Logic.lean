import Verif.Model.Parse
/-
Two small program logics: rely/guarantee for cache-accessing programs (`Prog.Safe`) and locality for cache-free code (`P.Sim`).
-/
namespace Verif

/-! ### Bits -/

theorem Bitset.check_set (b : Bitset) (i j : Nat) (hi : i < 64) : (b.set i).check j = (decide (i = j) || b.check j) := by
  unfold Bitset.set Bitset.check
  have h1 : (UInt64.ofNat i).toNat = i := by
    rw [UInt64.toNat_ofNat']; omega
  have h2 : ((UInt64.ofNat i).toBitVec % 64).toNat = i := by
    rw [BitVec.toNat_umod]; simp; omega
  simp only [UInt64.toBitVec_or, UInt64.toBitVec_shiftLeft, BitVec.getLsbD_or, BitVec.shiftLeft_eq', BitVec.getLsbD_shiftLeft]
  rw [h2]
  by_cases hij : i = j
  · subst hij; simp [hi]
  · simp only [hij, decide_false, Bool.false_or]
    cases hb : b.toBitVec.getLsbD j <;> simp
    intro h3 h4
    have : j - i ≠ 0 := by omega
    omega

@[simp] theorem Bitset.check_zero (i : Nat) : Bitset.check 0 i = false := by simp [Bitset.check]

@[simp] theorem Ctx.check_setBit (c : Ctx) (i j : Nat) (hi : i < 64) : (c.setBit i).check j = (decide (i = j) || c.check j) := by
  simp [Ctx.check, Ctx.setBit, Bitset.check_set _ _ _ hi]

/-! ### Monad unfolding -/

@[simp] theorem P.pure_apply {α : Type} (a : α) (c : Ctx) : (Pure.pure a : P α) c = (c, some a) := rfl
theorem P.bind_apply {α β : Type} (x : P α) (f : α → P β) (c : Ctx) :
    (x >>= f) c = match x c with | (c', some a) => f a c' | (c', none) => (c', none) := rfl
@[simp] theorem P.ctx_apply (c : Ctx) : P.ctx c = (c, some c) := rfl
@[simp] theorem P.modify_apply (f : Ctx → Ctx) (c : Ctx) : P.modify f c = (f c, some ()) := rfl
@[simp] theorem P.ofOption_apply {α : Type} (o : Option α) (c : Ctx) : P.ofOption o c = (c, o) := rfl

@[simp] theorem P.ctx_bind {β : Type} (f : Ctx → P β) (c : Ctx) : (P.ctx >>= f) c = f c c := rfl
@[simp] theorem P.modify_bind {β : Type} (g : Ctx → Ctx) (f : Unit → P β) (c : Ctx) : (P.modify g >>= f) c = f () (g c) := rfl
@[simp] theorem P.pure_bind {α β : Type} (a : α) (f : α → P β) (c : Ctx) : ((Pure.pure a : P α) >>= f) c = f a c := rfl
theorem P.bind_some {α β : Type} {x : P α} {f : α → P β} {c c' : Ctx} {a : α} (h : x c = (c', some a)) : (x >>= f) c = f a c' := by
  simp [P.bind_apply, h]
theorem P.bind_none {α β : Type} {x : P α} {f : α → P β} {c c' : Ctx} (h : x c = (c', none)) : (x >>= f) c = (c', none) := by
  simp [P.bind_apply, h]
theorem P.ofOption_bind_some {α β : Type} {o : Option α} {f : α → P β} {c : Ctx} {a : α} (h : o = some a) :
    (P.ofOption o >>= f) c = f a c := by subst h; rfl

/-! ### Rely/guarantee -/

/-- Every answer the cache may give (`G`) leads only to Sets satisfying `S` and to results satisfying `Q`. -/
def Prog.Safe {α : Type} (G : Bytes → GetResp → Prop) (S : Bytes → CacheEntry → Prop) (Q : α → Prop) : Prog α → Prop
  | .ret a => Q a
  | .get k f => ∀ r, G k r → Prog.Safe G S Q (f r)
  | .set k e p => S k e ∧ Prog.Safe G S Q p

namespace Prog

theorem Safe.mono {α : Type} {G S} {Q Q' : α → Prop} (h : ∀ a, Q a → Q' a) {p : Prog α} (hp : p.Safe G S Q) : p.Safe G S Q' := by
  induction p with
  | ret a => exact h a hp
  | get k f ih => exact fun r hr => ih r (hp r hr)
  | set k e p ih => exact ⟨hp.1, ih hp.2⟩

theorem Safe.triv {α : Type} {G} {Q : α → Prop} (p : Prog α) (h : ∀ a, Q a) : p.Safe G (fun _ _ => True) Q := by
  induction p with
  | ret a => exact h a
  | get k f ih => exact fun r _ => ih r
  | set k e p ih => exact ⟨trivial, ih⟩

theorem Safe.bind {α β : Type} {G S} {Q : α → Prop} {R : β → Prop} {p : Prog α} {f : α → Prog β} (hp : p.Safe G S Q)
    (hf : ∀ a, Q a → (f a).Safe G S R) : (p.bind f).Safe G S R := by
  induction p with
  | ret a => exact hf a hp
  | get k g ih => exact fun r hr => ih r (hp r hr)
  | set k e p ih => exact ⟨hp.1, ih hp.2⟩

theorem runNull_bind {α β : Type} (p : Prog α) (f : α → Prog β) : (p.bind f).runNull = (f p.runNull).runNull := by
  induction p with
  | ret a => rfl
  | get k g ih => exact ih .miss
  | set k e p ih => exact ih

theorem bind_assoc {α β γ : Type} (p : Prog α) (f : α → Prog β) (g : β → Prog γ) :
    (p.bind f).bind g = p.bind (fun a => (f a).bind g) := by
  induction p with
  | ret a => rfl
  | get k h ih => simp only [Prog.bind]; congr 1; funext r; exact ih r
  | set k e p ih => simp only [Prog.bind]; congr 1

theorem Safe.runNull {α : Type} {G S} {Q : α → Prop} {p : Prog α} (hG : ∀ k, G k .miss) (hp : p.Safe G S Q) : Q p.runNull := by
  induction p with
  | ret a => exact hp
  | get k g ih => exact ih .miss (hp _ (hG k))
  | set k e p ih => exact ih hp.2

end Prog

/-- Triple for a cache-accessing method: the post-condition sees the result (`none` = panicked) and the context. -/
def M.Tri {α : Type} (G : Bytes → GetResp → Prop) (S : Bytes → CacheEntry → Prop) (pre : Ctx → Prop) (x : M α)
    (post : Option α → Ctx → Prop) : Prop :=
  ∀ c, pre c → (x c).Safe G S (fun r => post r.2 r.1)

namespace M

variable {G : Bytes → GetResp → Prop} {S : Bytes → CacheEntry → Prop}

theorem bind_apply {α β : Type} (x : M α) (f : α → M β) (c : Ctx) :
    (x >>= f) c = (x c).bind fun r => match r with | (c', some a) => f a c' | (c', none) => .ret (c', none) := rfl

@[simp] theorem ctx_bind {β : Type} (f : Ctx → M β) (c : Ctx) : (M.ctx >>= f) c = f c c := rfl
@[simp] theorem modify_bind {β : Type} (g : Ctx → Ctx) (f : Unit → M β) (c : Ctx) : (M.modify g >>= f) c = f () (g c) := rfl
@[simp] theorem pure_bind' {α β : Type} (a : α) (f : α → M β) (c : Ctx) : ((Pure.pure a : M α) >>= f) c = f a c := rfl
@[simp] theorem pure_apply {α : Type} (a : α) (c : Ctx) : (Pure.pure a : M α) c = .ret (c, some a) := rfl
@[simp] theorem lift_apply {α : Type} (x : P α) (c : Ctx) : M.lift x c = .ret (x c) := rfl
theorem lift_bind {α β : Type} (x : P α) (f : α → M β) (c : Ctx) :
    (M.lift x >>= f) c = match x c with | (c', some a) => f a c' | (c', none) => .ret (c', none) := rfl
@[simp] theorem ofOption_apply {α : Type} (o : Option α) (c : Ctx) : M.ofOption o c = .ret (c, o) := rfl
@[simp] theorem modify_apply (f : Ctx → Ctx) (c : Ctx) : M.modify f c = .ret (f c, some ()) := rfl
@[simp] theorem ctx_apply (c : Ctx) : M.ctx c = .ret (c, some c) := rfl
@[simp] theorem cacheGet_bind {β : Type} (k : Bytes) (f : GetResp → M β) (c : Ctx) :
    (M.cacheGet k >>= f) c = .get k (fun r => f r c) := rfl
@[simp] theorem cacheSet_apply (k : Bytes) (e : CacheEntry) (c : Ctx) : M.cacheSet k e c = .set k e (.ret (c, some ())) := rfl

theorem Tri.mono {α : Type} {pre pre' : Ctx → Prop} {x : M α} {post post' : Option α → Ctx → Prop} (h : M.Tri G S pre x post)
    (h1 : ∀ c, pre' c → pre c) (h2 : ∀ r c, post r c → post' r c) : M.Tri G S pre' x post' :=
  fun c hc => (h c (h1 c hc)).mono fun r hr => h2 r.2 r.1 hr

theorem Tri.bind {α β : Type} {pre : Ctx → Prop} {x : M α} {f : α → M β} {mid : Option α → Ctx → Prop}
    {post : Option β → Ctx → Prop} (hx : M.Tri G S pre x mid) (hn : ∀ c, mid none c → post none c)
    (hf : ∀ a, M.Tri G S (mid (some a)) (f a) post) : M.Tri G S pre (x >>= f) post := by
  intro c hc
  rw [bind_apply]
  refine (hx c hc).bind ?_
  rintro ⟨c', _ | a⟩ h
  · exact hn c' h
  · exact hf a c' h

end M

/-- Null-cache semantics of a method. -/
def M.null {α : Type} (x : M α) : P α := fun c => (x c).runNull

namespace M

theorem null_bind {α β : Type} (x : M α) (f : α → M β) : (x >>= f).null = x.null >>= fun a => (f a).null := by
  funext c
  simp only [M.null, bind_apply, Prog.runNull_bind, P.bind_apply]
  rcases (x c).runNull with ⟨c', _ | a⟩ <;> rfl

@[simp] theorem null_lift {α : Type} (x : P α) : (M.lift x).null = x := rfl
@[simp] theorem null_pure {α : Type} (a : α) : (Pure.pure a : M α).null = (Pure.pure a : P α) := rfl
@[simp] theorem null_ctx : M.ctx.null = P.ctx := rfl
@[simp] theorem null_modify (f) : (M.modify f).null = P.modify f := rfl
@[simp] theorem null_ofOption {α : Type} (o : Option α) : (M.ofOption o).null = P.ofOption o := rfl
@[simp] theorem null_cacheSet (k e) : (M.cacheSet k e).null = (Pure.pure () : P Unit) := rfl
@[simp] theorem null_cacheGet (k) : (M.cacheGet k).null = (Pure.pure .miss : P GetResp) := rfl

end M

/-! ### Locality -/

/-- `x` and `y` started in contexts with the same view produce the same result and the same view; and `x` respects the frame. -/
def P.Sim {V α : Type} (view : Ctx → V) (frame : Ctx → Ctx → Prop) (x y : P α) : Prop :=
  ∀ c d, view c = view d → (x c).2 = (y d).2 ∧ view (x c).1 = view (y d).1 ∧ frame c (x c).1

namespace P.Sim

variable {V : Type} {view : Ctx → V} {frame : Ctx → Ctx → Prop} (hr : ∀ c, frame c c)
  (ht : ∀ a b c, frame a b → frame b c → frame a c)

include hr in
theorem pure {α : Type} (a : α) : P.Sim view frame (Pure.pure a) (Pure.pure a) := fun c _ h => ⟨rfl, h, hr c⟩

include hr in
theorem ofOption {α : Type} (o : Option α) : P.Sim view frame (P.ofOption o) (P.ofOption o) := fun c _ h => ⟨rfl, h, hr c⟩

theorem modify {f g : Ctx → Ctx} (h : ∀ c d, view c = view d → view (f c) = view (g d)) (hf : ∀ c, frame c (f c)) :
    P.Sim view frame (P.modify f) (P.modify g) := fun c d hcd => ⟨rfl, h c d hcd, hf c⟩

include ht in
theorem bind {α β : Type} {x y : P α} {f g : α → P β} (h : P.Sim view frame x y) (hfg : ∀ a, P.Sim view frame (f a) (g a)) :
    P.Sim view frame (x >>= f) (y >>= g) := by
  intro c d hcd
  obtain ⟨h1, h2, h3⟩ := h c d hcd
  rw [P.bind_apply, P.bind_apply]
  revert h1 h2 h3
  rcases x c with ⟨c', _ | a⟩ <;> rcases y d with ⟨d', _ | b⟩ <;> intro h1 h2 h3 <;> simp at h1 h2 h3 ⊢
  · exact ⟨h2, h3⟩
  · subst h1
    obtain ⟨k1, k2, k3⟩ := hfg a c' d' h2
    exact ⟨k1, k2, ht _ _ _ h3 k3⟩

theorem ctx {β : Type} {f g : Ctx → P β} (h : ∀ c d, view c = view d → P.Sim view frame (f c) (g d)) :
    P.Sim view frame (P.ctx >>= f) (P.ctx >>= g) := by
  intro c d hcd
  exact h c d hcd c d hcd

end P.Sim
end Verif
