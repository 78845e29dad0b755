import Verif.Proofs.NullModel
import Verif.Proofs.Uncached
import Verif.Proofs.Detect
/-
The getters of parsed versions, without a cache, in terms of those of version strings.
-/
namespace Verif

section
variable {T : Tables} {H : Bytes → UInt64}

/-- Without a cache, `x` leaves `get` alone. -/
def Same {α : Type} (get : Ctx → Version) (x : M α) : Prop := ∀ c, get (x.null c).1 = get c

variable {get : Ctx → Version}

theorem Same.bind {α β : Type} {x : M α} {f : α → M β} (h : Same get x) (hf : ∀ a, Same get (f a)) : Same get (x >>= f) := by
  intro c
  have h1 := h c
  rw [M.null_bind]
  rcases he : x.null c with ⟨c', _ | a⟩
  · rw [P.bind_none he]; rw [he] at h1; exact h1
  · rw [P.bind_some he, hf a c']; rw [he] at h1; exact h1

theorem Same.pure {α : Type} (a : α) : Same get (Pure.pure a : M α) := fun _ => rfl

theorem Same.ofOption {α : Type} (o : Option α) : Same get (M.ofOption o) := by
  intro c
  cases o <;> rfl

theorem Same.ctx : Same get M.ctx := fun _ => rfl

theorem Same.ensure {flag : Nat} {body : P Bool} (hd : ∀ c, get (body c).1 = get c) (hb : ∀ c, get (c.setBit flag) = get c) :
    Same get (Verif.ensure flag (parseFrame flag (M.lift body))) := by
  intro c
  unfold Verif.ensure
  rw [M.null_bind, M.null_ctx, P.ctx_bind, null_when]
  unfold P.when
  split
  · rw [M.null_bind]
    have h1 : get ((parseFrame flag (M.lift body)).null c).1 = get c := by
      rw [null_parseFrame, M.null_lift]
      show get ((body c).1.setBit flag) = _
      rw [hb, hd]
    rcases he : (parseFrame flag (M.lift body)).null c with ⟨c', _ | a⟩
    · rw [P.bind_none he]; rw [he] at h1; exact h1
    · rw [P.bind_some he]; rw [he] at h1; exact h1
  · rfl

/-- The common shape of the three getters. -/
theorem null_version {str : M Bytes} {set : Ctx → Version → Ctx} (hs : ∀ c v, get (set c v) = v) (hstr : Same get str) {c : Ctx} (hp : (get c).p = false) :
    ((M.ctx >>= fun c => M.when (¬ (get c).p = true) (str >>= fun raw => M.modify fun c => set c ((get c).parse raw).1) >>= fun _ =>
      M.ctx >>= fun c => (pure (get c) : M Version)).null c).2 = (str.null c).2.map fun s => ((get c).parse s).1 := by
  rw [M.null_bind, M.null_ctx, P.ctx_bind, M.null_bind, null_when]
  unfold P.when
  rw [if_pos (by rw [hp]; decide)]
  have h1 := hstr c
  rcases he : str.null c with ⟨c', _ | raw⟩
  · rw [P.bind_none (c' := c')]
    · rfl
    · rw [M.null_bind, P.bind_none he]
  · rw [he] at h1
    rw [P.bind_some (c' := set c' ((get c').parse raw).1) (a := ())]
    · rw [M.null_bind, M.null_ctx, P.ctx_bind]
      show some (get (set c' _)) = _
      rw [hs]
      show some ((get c').parse raw).1 = _
      rw [show get c' = get c from h1]
      rfl
    · rw [M.null_bind, P.bind_some he]
      rfl

theorem same_client (hr : ∀ c c' : Ctx, frameC c c' → get c' = get c) (hb : ∀ c, get (c.setBit flagClientDetect) = get c) :
    Same get (Verif.ensure flagClientDetect (parseClient T)) := by
  refine Same.ensure (fun c => ?_) hb
  exact hr _ _ (locC_detectClient T c c rfl).2.2

theorem same_browserString (hr : ∀ c c' : Ctx, frameC c c' → get c' = get c) (hb : ∀ c, get (c.setBit flagClientDetect) = get c) :
    Same get (getBrowserVersionString T) := by
  unfold getBrowserVersionString
  refine (same_client hr hb).bind fun _ => Same.ctx.bind fun c => ?_
  split
  · exact (Same.ofOption _).bind fun _ => .pure _
  · exact .pure _

theorem same_engineString (hr : ∀ c c' : Ctx, frameC c c' → get c' = get c) (hb : ∀ c, get (c.setBit flagClientDetect) = get c) :
    Same get (getEngineVersionString T) := by
  unfold getEngineVersionString
  refine (same_client hr hb).bind fun _ => Same.ctx.bind fun c => ?_
  split
  · exact Same.ofOption _
  · exact .pure _

theorem same_osString : Same (fun c => c.osVersion) (getOSVersionString T) := by
  unfold getOSVersionString
  refine Same.bind (Same.ensure (fun c => ?_) fun _ => rfl) fun _ => Same.ctx.bind fun c => ?_
  · have := (locO_detectOS T c c rfl).2.2.1
    simp [restO] at this
    simp [this]
  · split
    · refine (Same.ofOption _).bind fun raw => ?_
      split
      · exact Same.bind (fun c => rfl) fun _ => Same.ctx.bind fun _ => .pure _
      · exact .pure _
    · exact .pure _

end

end Verif
