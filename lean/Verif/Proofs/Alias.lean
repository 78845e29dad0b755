import Verif.Model.Alias
import Verif.Proofs.Types
import Verif.Proofs.Template
/-
The getters returning windows are the getters; what operations do to the buffers of a context; strings in memory.
-/
namespace Verif
variable {T : Tables} {H : Bytes → UInt64}

/-! ### Windows -/

/-- The window lies within its slice. -/
def Loc.Fits (c : Ctx) : Loc → Prop
  | .static _ => True
  | .src lo n => lo + n ≤ c.src.length
  | .buf lo n => lo + n ≤ c.buf.length

/-- The window is not in `c.buf`. -/
def Loc.NotBuf : Loc → Prop
  | .buf _ _ => False
  | _ => True

theorem window_sub {b : Bytes} {lo L off n : Nat} (h : off + n ≤ L) : (b.drop (lo + off)).take n = (((b.drop lo).take L).drop off).take n := by
  rw [List.drop_take, List.drop_drop, List.take_take, Nat.min_eq_left (by omega)]

namespace Loc
variable {c : Ctx} {l : Loc}

theorem Fits.len (h : l.Fits c) : (l.text c).length = l.len := by
  cases l with
  | static t => rfl
  | src lo n => simp only [text, Loc.len, List.length_take, List.length_drop]; simp only [Fits] at h; omega
  | buf lo n => simp only [text, Loc.len, List.length_take, List.length_drop]; simp only [Fits] at h; omega

theorem text_sub {off n : Nat} (h : off + n ≤ l.len) : (l.sub off n).text c = ((l.text c).drop off).take n := by
  cases l with
  | static t => rfl
  | src lo L => exact window_sub h
  | buf lo L => exact window_sub h

theorem Fits.sub (hf : l.Fits c) {off n : Nat} (h : off + n ≤ l.len) : (l.sub off n).Fits c := by
  cases l with
  | static t => trivial
  | src lo L => simp only [Loc.sub, Fits, Loc.len] at *; omega
  | buf lo L => simp only [Loc.sub, Fits, Loc.len] at *; omega

theorem NotBuf.sub (h : l.NotBuf) (off n : Nat) : (l.sub off n).NotBuf := by cases l <;> trivial

theorem text_sliceE (hf : l.Fits c) (e : Entry64) : (l.sliceE? e).map (text c) = Verif.sliceE? (l.text c) e := by
  unfold sliceE? Verif.sliceE? slice?
  rw [hf.len]
  dsimp only
  split
  · rename_i h
    rw [Option.map_some, text_sub (by omega)]
  · rfl

theorem fits_sliceE (hf : l.Fits c) {e : Entry64} {l' : Loc} (h : l.sliceE? e = some l') : l'.Fits c := by
  unfold sliceE? at h
  dsimp only at h
  split at h
  · cases h; exact hf.sub (by omega)
  · cases h

theorem notBuf_sliceE (hf : l.NotBuf) {e : Entry64} {l' : Loc} (h : l.sliceE? e = some l') : l'.NotBuf := by
  unfold sliceE? at h
  dsimp only at h
  split at h
  · cases h; exact hf.sub _ _
  · cases h

theorem trimRight_prefix (x : UInt8) (b : Bytes) : Verif.trimRight x b <+: b := by
  unfold Verif.trimRight
  have : b.reverse.dropWhile (· == x) <:+ b.reverse := List.dropWhile_suffix _
  simpa using List.reverse_prefix.mpr this

theorem trimRight_take (x : UInt8) (b : Bytes) : b.take (Verif.trimRight x b).length = Verif.trimRight x b :=
  (List.prefix_iff_eq_take.mp (trimRight_prefix x b)).symm

theorem text_trimRight (hf : l.Fits c) (x : UInt8) : (l.trimRight x c).text c = Verif.trimRight x (l.text c) ∧ (l.trimRight x c).Fits c := by
  have hl := (trimRight_prefix x (l.text c)).length_le
  rw [hf.len] at hl
  refine ⟨?_, hf.sub (by omega)⟩
  unfold trimRight
  rw [text_sub (by omega), List.drop_zero, trimRight_take]

theorem dropWhile_drop (p : UInt8 → Bool) (b : Bytes) : b.drop (b.length - (b.dropWhile p).length) = b.dropWhile p :=
  (List.suffix_iff_eq_drop.mp (List.dropWhile_suffix p)).symm

theorem text_trim (hf : l.Fits c) (x : UInt8) : (l.trim x c).text c = Verif.trim x (l.text c) ∧ (l.trim x c).Fits c := by
  have h1 := (trimRight_prefix x ((l.text c).dropWhile (· == x))).length_le
  have h2 := (List.dropWhile_suffix (l := l.text c) (· == x)).length_le
  have h : (l.text c).length - ((l.text c).dropWhile (· == x)).length + (Verif.trim x (l.text c)).length ≤ l.len := by
    rw [← hf.len]
    unfold Verif.trim
    omega
  refine ⟨?_, hf.sub h⟩
  unfold trim
  rw [text_sub h, dropWhile_drop]
  exact trimRight_take _ _

theorem fits_src : c.srcLoc.Fits c := by simp [Ctx.srcLoc, Fits]
theorem fits_buf : c.bufLoc.Fits c := by simp [Ctx.bufLoc, Fits]
theorem text_src : c.srcLoc.text c = c.src := by simp [Ctx.srcLoc, text]
theorem text_buf : c.bufLoc.text c = c.buf := by simp [Ctx.bufLoc, text]

end Loc

/-! ### The two versions of the getters -/

namespace M
theorem bind_assoc {α β γ : Type} (x : M α) (f : α → M β) (g : β → M γ) : (x >>= f) >>= g = x >>= fun a => f a >>= g := by
  funext c
  simp only [bind_apply, Prog.bind_assoc]
  congr 1
  funext r
  rcases r with ⟨c', _ | a⟩ <;> rfl

theorem bind_pure {α : Type} (x : M α) : x >>= (fun a => Pure.pure a) = x := by
  funext c
  rw [bind_apply]
  have : ∀ p : Prog (Ctx × Option α), (p.bind fun r => match r with | (c', some a) => (Pure.pure a : M α) c' | (c', none) => .ret (c', none)) = p := by
    intro p
    induction p with
    | ret a => rcases a with ⟨c', _ | a⟩ <;> rfl
    | get k f ih => simp only [Prog.bind]; congr 1; funext r; exact ih r
    | set k e p ih => simp only [Prog.bind]; congr 1
  exact this _
end M

/-- Read a window. -/
def readL (l : Loc) : M Bytes := M.ctx >>= fun c => Pure.pure (l.text c)

/-- Both versions do the same and the windows are sound. -/
structure SameReader (f : Ctx → M Bytes) (fL : Ctx → M Loc) : Prop where
  eq : ∀ c, f c c = (fL c >>= readL) c

theorem same_of {x : M Unit} {f : Ctx → M Bytes} {fL : Ctx → M Loc} (h : SameReader f fL) :
    (x >>= fun _ => M.ctx >>= f) = (x >>= fun _ => M.ctx >>= fL) >>= readL := by
  rw [M.bind_assoc]
  congr 1
  funext _
  funext c
  exact h.eq c

theorem eq_getUserAgent : getUserAgent = getUserAgentL >>= readL := by
  funext c
  show Prog.ret _ = Prog.ret _
  rw [← Loc.text_src]

theorem ret_ofOption {c : Ctx} {o : Option Bytes} {oL : Option Loc} (h : oL.map (Loc.text c) = o) {f : Bytes → Bytes} {fL : Loc → Loc}
    (hf : ∀ l, oL = some l → (fL l).text c = f (l.text c)) :
    (M.ofOption o >>= fun r => Pure.pure (f r)) c = ((M.ofOption oL >>= fun r => Pure.pure (fL r)) >>= readL) c := by
  subst h
  cases oL with
  | none => rfl
  | some l =>
    show Prog.ret _ = Prog.ret _
    rw [hf l rfl]

theorem ret_ofOption' {c : Ctx} {o : Option Bytes} {oL : Option Loc} (h : oL.map (Loc.text c) = o) :
    (M.ofOption o) c = (M.ofOption oL >>= readL) c := by
  subst h
  cases oL <;> rfl

theorem eq_getBrowser : getBrowser T = getBrowserL T >>= readL := by
  refine same_of ⟨fun c => ?_⟩
  dsimp only
  generalize (if c.hintHash ≠ 0 then _ else _ : Entry64 × Bytes) = eb
  split
  · exact ret_ofOption' (Loc.text_sliceE (l := .static _) trivial _)
  · rfl

theorem eq_getEngine : getEngine T = getEngineL T >>= readL := by
  refine same_of ⟨fun c => ?_⟩
  split
  · rfl
  · split
    · exact ret_ofOption' (Loc.text_sliceE (l := .static _) trivial _)
    · rfl

theorem eq_getEngineVersionString : getEngineVersionString T = getEngineVersionStringL T >>= readL := by
  refine same_of ⟨fun c => ?_⟩
  split
  · refine ret_ofOption' ?_
    rw [Loc.text_sliceE Loc.fits_src, Loc.text_src]
  · rfl

theorem eq_getBrand : getBrand T = getBrandL T >>= readL := by
  refine same_of ⟨fun c => ?_⟩
  dsimp only
  split
  · exact ret_ofOption (Loc.text_sliceE (l := .static _) trivial _) fun l hl => (Loc.text_trim (Loc.fits_sliceE (l := .static _) trivial hl) 32).1
  · rfl

theorem eq_getModel : getModel T = getModelL T >>= readL := by
  refine same_of ⟨fun c => ?_⟩
  split
  · refine ret_ofOption ?_ fun l hl => (Loc.text_trim (Loc.fits_sliceE Loc.fits_buf hl) 32).1
    rw [Loc.text_sliceE Loc.fits_buf, Loc.text_buf]
  · rfl

/-- A choice between a table and `c.src`. -/
theorem text_ite {c : Ctx} (p : Prop) [Decidable p] {a b : Bytes} {x y : Loc} (hx : x.text c = a) (hy : y.text c = b) :
    (if p then x else y).text c = if p then a else b := by split <;> assumption
theorem fits_ite {c : Ctx} (p : Prop) [Decidable p] {x y : Loc} (hx : x.Fits c) (hy : y.Fits c) : (if p then x else y).Fits c := by split <;> assumption
theorem notBuf_ite (p : Prop) [Decidable p] {x y : Loc} (hx : x.NotBuf) (hy : y.NotBuf) : (if p then x else y).NotBuf := by split <;> assumption

theorem eq_getOS : getOS T = getOSL T >>= readL := by
  refine same_of ⟨fun c => ?_⟩
  dsimp only
  have hf : (if c.check flagOSBufSrc = true then c.srcLoc else Loc.static T.orBuf).Fits c := fits_ite _ Loc.fits_src trivial
  split
  · refine ret_ofOption ?_ fun l hl => (Loc.text_trim (Loc.fits_sliceE hf hl) 32).1
    rw [Loc.text_sliceE hf, text_ite (a := c.src) (b := T.orBuf) _ Loc.text_src rfl]
  · rfl

theorem indexByteAt_lt {s : Bytes} {b : UInt8} {p : Nat} (h : indexByteAt s b 0 = some p) : p < s.length := by
  unfold indexByteAt at h
  rw [List.drop_zero, Option.map_eq_some_iff] at h
  obtain ⟨q, h1, rfl⟩ := h
  obtain ⟨_, _, h2, _⟩ := indexByte_some h1
  exact h2

/-- The part after a slash, if there is one. -/
theorem afterSlash {c : Ctx} {l : Loc} (hf : l.Fits c) :
    (match indexByteAt (l.text c) 47 0 with | some p => l.sub (p + 1) (l.len - (p + 1)) | none => l).text c =
        (match indexByteAt (l.text c) 47 0 with | some p => (l.text c).drop (p + 1) | none => l.text c) ∧
      (match indexByteAt (l.text c) 47 0 with | some p => l.sub (p + 1) (l.len - (p + 1)) | none => l).Fits c := by
  cases hp : indexByteAt (l.text c) 47 0 with
  | none => exact ⟨rfl, hf⟩
  | some p =>
    have := indexByteAt_lt hp
    have h1 := hf.len
    refine ⟨?_, hf.sub (by omega)⟩
    dsimp only
    rw [Loc.text_sub (by omega), List.take_of_length_le (by rw [List.length_drop]; omega)]

theorem eq_getBrowserVersionString : getBrowserVersionString T = getBrowserVersionStringL T >>= readL := by
  refine same_of ⟨fun c => ?_⟩
  dsimp only
  have hf : (if c.check flagVerConstSrc = true then Loc.static T.crBuf else c.srcLoc).Fits c := fits_ite _ trivial Loc.fits_src
  split
  · refine ret_ofOption (f := fun raw => trimRight 46 (match indexByteAt raw 47 0 with | some p => raw.drop (p + 1) | none => raw))
      (fL := fun raw => Loc.trimRight 46 c (match indexByteAt (raw.text c) 47 0 with | some p => raw.sub (p + 1) (raw.len - (p + 1)) | none => raw)) ?_ fun l hl => ?_
    · rw [Loc.text_sliceE hf, text_ite (a := T.crBuf) (b := c.src) _ rfl Loc.text_src]
    · obtain ⟨h1, h2⟩ := afterSlash (Loc.fits_sliceE hf hl)
      rw [(Loc.text_trimRight h2 46).1, h1]
  · rfl

theorem eq_getOSVersionString : getOSVersionString T = getOSVersionStringL T >>= readL := by
  refine same_of ⟨fun c => ?_⟩
  dsimp only
  have hf : (if c.check flagOSVerBufSrc = true then Loc.static T.orBuf else c.srcLoc).Fits c := fits_ite _ trivial Loc.fits_src
  split
  · have ht := Loc.text_sliceE hf c.osVersion64
    rw [text_ite (a := T.orBuf) (b := c.src) _ rfl Loc.text_src] at ht
    rw [← ht]
    cases hs : (if c.check flagOSVerBufSrc = true then Loc.static T.orBuf else c.srcLoc).sliceE? c.osVersion64 with
    | none => rfl
    | some raw =>
      show (if (indexByte (raw.text c) 95).isSome = true then _ else _ : M Bytes) c =
        ((if (indexByte (raw.text c) 95).isSome = true then _ else _ : M Loc) >>= readL) c
      split
      · show Prog.ret _ = Prog.ret _
        refine congrArg Prog.ret (Prod.ext rfl ?_)
        show some _ = some _
        refine congrArg some ?_
        simp only [Loc.text]
        rw [List.take_of_length_le (by rw [List.length_drop]; omega)]
      · rfl
  · rfl

theorem text_len_le (c : Ctx) (l : Loc) : (l.text c).length ≤ l.len := by
  cases l with
  | static t => exact Nat.le_refl _
  | src lo n => exact List.length_take_le _ _
  | buf lo n => exact List.length_take_le _ _

theorem text_tail {c : Ctx} {l : Loc} {k : Nat} (h : k ≤ (l.text c).length) : (l.sub k ((l.text c).length - k)).text c = (l.text c).drop k := by
  have := text_len_le c l
  rw [Loc.text_sub (by omega)]
  exact List.take_of_length_le (by rw [List.length_drop]; omega)

theorem text_nil (c : Ctx) (l : Loc) : (l.sub 0 0).text c = [] := by
  rw [Loc.text_sub (Nat.zero_le _)]
  exact List.take_zero

theorem parseLoopL_eq (c : Ctx) : ∀ n i v l, v.parseLoop n i (l.text c) = ((parseLoopL c n i v l).1, (parseLoopL c n i v l).2.1.text c, (parseLoopL c n i v l).2.2)
  | 0, _, _, _ => rfl
  | n + 1, i, v, l => by
    unfold Version.parseLoop parseLoopL
    split
    · cases ha : atoi ((l.text c).take ((indexByte (l.text c) 46).getD (l.text c).length)) with
      | none => simp only [ha]
      | some d =>
        simp only [ha]
        rw [← parseLoopL_eq c n (i + 1)]
        congr 1
        split
        · rw [text_tail (by omega)]
        · rw [text_nil]
    · exact parseLoopL_eq c n (i + 1) v l

theorem parseL_eq (c : Ctx) (v : Version) (l : Loc) : (v.parse (l.text c)).1 = (parseL c v l).1 := by
  unfold Version.parse parseL
  split
  · rfl
  · split
    · rw [parseLoopL_eq]
      rcases parseLoopL c 4 0 v l with ⟨v, l, _ | _⟩
      · dsimp only
        split
        · cases hf : (l.text c).findIdx? (fun c => c == 32 || c == 45) with
          | none => rfl
          | some idx =>
            have := (List.findIdx?_eq_some_iff_getElem.mp hf).1
            dsimp only
            rw [text_tail (by omega)]
        · rfl
      · rfl
    · rfl

/-- The window assigned to Suffix reads as the Suffix. -/
theorem parseL_suffix {c : Ctx} {v : Version} {l w : Loc} (h : (parseL c v l).2 = some w) : (parseL c v l).1.suffix = w.text c := by
  revert h
  unfold parseL
  split
  · nofun
  · split
    · rcases parseLoopL c 4 0 v l with ⟨v, l, _ | _⟩
      · dsimp only
        split
        · cases hf : (l.text c).findIdx? (fun c => c == 32 || c == 45) with
          | none => nofun
          | some idx => rintro ⟨⟩; rfl
        · nofun
      · nofun
    · nofun

/-- A property of windows that their parts share. -/
structure PartClosed (Q : Loc → Prop) (c : Ctx) : Prop where
  sub : ∀ l off n, Q l → off + n ≤ l.len → Q (l.sub off n)

theorem parseLoopL_part {Q : Loc → Prop} {c : Ctx} (hq : PartClosed Q c) : ∀ n i v l, Q l → Q (parseLoopL c n i v l).2.1
  | 0, _, _, _, h => h
  | n + 1, i, v, l, h => by
    unfold parseLoopL
    split
    · cases ha : atoi ((l.text c).take ((indexByte (l.text c) 46).getD (l.text c).length)) with
      | none => simpa only [ha] using h
      | some d =>
        simp only [ha]
        refine parseLoopL_part hq n (i + 1) _ _ ?_
        have := text_len_le c l
        split
        · exact hq.sub _ _ _ h (by omega)
        · exact hq.sub _ _ _ h (Nat.zero_le _)
    · exact parseLoopL_part hq n (i + 1) v l h

/-- The Suffix is a part of the string. -/
theorem parseL_part {Q : Loc → Prop} {c : Ctx} (hq : PartClosed Q c) {v : Version} {l w : Loc} (h : Q l) (hw : (parseL c v l).2 = some w) : Q w := by
  revert hw
  unfold parseL
  split
  · nofun
  · split
    · have hp := parseLoopL_part hq 4 0 v l h
      rcases hl : parseLoopL c 4 0 v l with ⟨v, l, _ | _⟩
      · rw [hl] at hp
        dsimp only at hp ⊢
        split
        · cases hf : (l.text c).findIdx? (fun c => c == 32 || c == 45) with
          | none => nofun
          | some idx =>
            have := (List.findIdx?_eq_some_iff_getElem.mp hf).1
            have := text_len_le c l
            rintro ⟨⟩
            exact hq.sub _ _ _ hp (by omega)
        · nofun
      · nofun
    · nofun

theorem eq_version {get : Ctx → Version} {set : Ctx → Version → Ctx} (hg : ∀ c v, get (set c v) = v) (hs : ∀ c v, (set c v).src = c.src)
    (hb : ∀ c v, (set c v).buf = c.buf) {s : M Bytes} {sL : M Loc} (h : s = sL >>= readL) :
    M.map Ans.version (M.ctx >>= fun c => M.when (¬ (get c).p = true) (s >>= fun raw => M.modify fun c => set c ((get c).parse raw).1) >>= fun _ =>
      M.ctx >>= fun c => Pure.pure (get c)) = versionL get set sL >>= fun a => M.ctx >>= fun c => Pure.pure (a.toAns c) := by
  subst h
  funext c
  by_cases hp : (get c).p = true
  · show _ = (((if (get c).p = true then _ else _ : M LAns) >>= _) c)
    rw [if_pos hp]
    show M.map Ans.version (M.when (¬ (get c).p = true) _ >>= _) c = _
    unfold M.when
    rw [if_neg (not_not_intro hp)]
    rfl
  · show _ = (((if (get c).p = true then _ else _ : M LAns) >>= _) c)
    rw [if_neg hp]
    show M.map Ans.version (M.when (¬ (get c).p = true) _ >>= _) c = _
    unfold M.when
    rw [if_pos hp]
    unfold M.map
    simp only [M.bind_assoc]
    refine congrFun (congrArg (sL >>= ·) ?_) c
    funext l c'
    show Prog.ret (set c' ((get c').parse (l.text c')).1, some (Ans.version (get (set c' ((get c').parse (l.text c')).1)))) =
      Prog.ret (set c' (parseL c' (get c') l).1, some (LAns.toAns (set c' (parseL c' (get c') l).1) (.ver (parseL c' (get c') l).1 (parseL c' (get c') l).2)))
    rw [hg, parseL_eq]
    congr 3
    cases hw : (parseL c' (get c') l).2 with
    | none => rfl
    | some w =>
      have e := parseL_suffix hw
      have ht : w.text (set c' (parseL c' (get c') l).1) = w.text c' := by
        cases w with
        | static t => rfl
        | src lo n => show ((set c' _).src.drop lo).take n = _; rw [hs]; rfl
        | buf lo n => show ((set c' _).buf.drop lo).take n = _; rw [hb]; rfl
      show Ans.version _ = Ans.version _
      rw [ht, ← e]

/-- The getters returning windows are the getters. -/
theorem progL_getter (g : Getter) : g.prog T = g.progL T >>= fun a => M.ctx >>= fun c => Pure.pure (a.toAns c) := by
  have str : ∀ {x : M Bytes} {y : M Loc}, x = y >>= readL →
      M.map Ans.text x = M.map LAns.str y >>= fun a => M.ctx >>= fun c => Pure.pure (a.toAns c) := by
    rintro x y rfl
    unfold M.map readL
    simp only [M.bind_assoc]
    rfl
  have val : ∀ {x : M Ans}, x = M.map LAns.val x >>= fun a => M.ctx >>= fun c => Pure.pure (a.toAns c) := by
    intro x
    unfold M.map
    rw [M.bind_assoc]
    exact (M.bind_pure x).symm
  cases g
  · exact str eq_getUserAgent
  · exact val
  · exact str eq_getBrowser
  · exact eq_version (get := (·.clientVersion)) (set := fun c v => { c with clientVersion := v }) (fun _ _ => rfl) (fun _ _ => rfl) (fun _ _ => rfl) eq_getBrowserVersionString
  · exact str eq_getBrowserVersionString
  · exact str eq_getEngine
  · exact eq_version (get := (·.engineVersion)) (set := fun c v => { c with engineVersion := v }) (fun _ _ => rfl) (fun _ _ => rfl) (fun _ _ => rfl) eq_getEngineVersionString
  · exact str eq_getEngineVersionString
  · exact val
  · exact str eq_getBrand
  · exact str eq_getModel
  · exact str eq_getOS
  · exact eq_version (get := (·.osVersion)) (set := fun c v => { c with osVersion := v }) (fun _ _ => rfl) (fun _ _ => rfl) (fun _ _ => rfl) eq_getOSVersionString
  · exact str eq_getOSVersionString

theorem progL_op (op : Op) : op.prog T H = op.progL T H >>= fun a => M.ctx >>= fun c => Pure.pure (a.map (LAns.toAns c)) := by
  cases op with
  | get g =>
    show M.map some (g.prog T) = M.map some (g.progL T) >>= _
    rw [progL_getter]
    unfold M.map
    simp only [M.bind_assoc]
    rfl
  | _ => rfl

/-! ### What operations do to the buffers -/

/-- Effect of a write on the contents of `c.buf`. -/
def BufOp.run (b : Bytes) : BufOp → Bytes
  | .append s => b ++ s
  | .load s => s

/-- The write is an append. -/
def BufOp.isAppend : BufOp → Prop
  | .append _ => True
  | .load _ => False

/-- From `c` to `c'`: the user agent is kept and the buffer is changed by recorded writes only, which are appends unless `L`. -/
structure Evol (L : Prop) (c c' : Ctx) : Prop where
  src : c'.src = c.src
  ex : ∃ w, c'.writes = c.writes ++ w ∧ c'.buf = w.foldl BufOp.run c.buf ∧ (L ∨ ∀ o ∈ w, o.isAppend)

theorem Evol.same {L : Prop} {c c' : Ctx} (h : c'.src = c.src) (h1 : c'.buf = c.buf) (h2 : c'.writes = c.writes) : Evol L c c' :=
  ⟨h, [], by rw [h2, List.append_nil], h1, .inr nofun⟩
theorem Evol.refl {L : Prop} (c : Ctx) : Evol L c c := .same rfl rfl rfl
theorem Evol.trans {L : Prop} {a b c : Ctx} (h : Evol L a b) (h' : Evol L b c) : Evol L a c := by
  obtain ⟨w, h1, h2, h3⟩ := h.ex
  obtain ⟨v, h4, h5, h6⟩ := h'.ex
  refine ⟨h'.src.trans h.src, w ++ v, by rw [h4, h1, List.append_assoc], by rw [List.foldl_append, ← h2, h5], ?_⟩
  rcases h3 with h3 | h3
  · exact .inl h3
  · rcases h6 with h6 | h6
    · exact .inl h6
    · exact .inr fun o ho => (List.mem_append.mp ho).elim (h3 o) (h6 o)
theorem Evol.mono {L L' : Prop} (hl : L → L') {a b : Ctx} (h : Evol L a b) : Evol L' a b := by
  obtain ⟨w, h1, h2, h3⟩ := h.ex
  exact ⟨h.src, w, h1, h2, h3.imp_left hl⟩

/-- `x` changes the buffer by recorded appends only, panics included. -/
structure P.Rl {α : Type} (x : P α) : Prop where
  tr : ∀ c, Evol False c (x c).1

namespace P.Rl
theorem pure {α : Type} (a : α) : P.Rl (Pure.pure a : P α) := ⟨fun _ => .refl _⟩
theorem ofOption {α : Type} (o : Option α) : P.Rl (P.ofOption o) := ⟨fun _ => .refl _⟩
theorem modify {g : Ctx → Ctx} (h : ∀ c, (g c).src = c.src) (h1 : ∀ c, (g c).buf = c.buf) (h2 : ∀ c, (g c).writes = c.writes) : P.Rl (P.modify g) :=
  ⟨fun c => .same (h c) (h1 c) (h2 c)⟩
theorem bind {α γ : Type} {x : P α} {g : α → P γ} (hx : x.Rl) (hg : ∀ a, (g a).Rl) : P.Rl (x >>= g) := by
  constructor
  intro c
  rw [P.bind_apply]
  rcases hr : x c with ⟨c', _ | a⟩
  · have := hx.tr c; rw [hr] at this; exact this
  · have := hx.tr c; rw [hr] at this; exact this.trans ((hg a).tr c')
theorem ctx {γ : Type} {g : Ctx → P γ} (hg : ∀ a, (g a).Rl) : P.Rl (P.ctx >>= g) := ⟨fun c => (hg c).tr c⟩
theorem when {p : Prop} [Decidable p] {x : P Unit} (h : x.Rl) : P.Rl (P.when p x) := by
  unfold P.when; split
  · exact h
  · exact .pure ()
theorem ite {α : Type} {p : Prop} [Decidable p] {x y : P α} (h : x.Rl) (h' : y.Rl) : P.Rl (if p then x else y) := by split <;> assumption
end P.Rl

macro "rl" : tactic => `(tactic| repeat' first
  | with_reducible assumption | with_reducible exact P.Rl.pure _ | with_reducible exact P.Rl.ofOption _
  | exact P.Rl.modify (fun c => rfl) (fun c => rfl) (fun c => rfl)
  | with_reducible refine P.Rl.ctx fun _ => ?_
  | with_reducible refine P.Rl.bind ?_ fun _ => ?_ | with_reducible refine P.Rl.when ?_ | with_reducible refine P.Rl.ite ?_ ?_)

theorem rl_bufAppend (s : Bytes) : (bufAppend s).Rl := ⟨fun c => ⟨rfl, [.append s], rfl, rfl, .inr (by simp [BufOp.isAppend])⟩⟩

theorem rl_clientEvalVersion (re : Re) (x : ClientTuple) : (clientEvalVersion re x).Rl := by unfold clientEvalVersion; rl
theorem rl_clientLoop : ∀ l, (clientLoop T l).Rl
  | [] => .pure _
  | v :: l => by
    have := rl_clientLoop l
    unfold clientLoop; rl
    apply rl_clientEvalVersion
theorem rl_engineLoop : ∀ l, (engineLoop T l).Rl
  | [] => .pure _
  | v :: l => by
    have := rl_engineLoop l
    unfold engineLoop; rl
theorem rl_evalEngine (x : ClientTuple) : (evalEngine T x).Rl := by
  have h1 : (engineFromRule T x).Rl := by unfold engineFromRule; rl
  have h2 : (engineFromList T).Rl := by
    unfold engineFromList; rl
    · apply rl_engineLoop
    · rename_i o; cases o <;> rl
  have h3 : (engineEvalVersion T).Rl := by unfold engineEvalVersion; rl; split <;> rl
  have h4 : (engineForceBlink T).Rl := by unfold engineForceBlink; rl
  unfold evalEngine; rl
theorem rl_evalClient (i : Nat) : (evalClient T i).Rl := by
  unfold evalClient; rl
  · apply rl_clientLoop
  · rename_i o; cases o <;> rl
    apply rl_evalEngine
theorem rl_clientTry {t : ClientType} {i : Nat} {rest : P Bool} (hr : rest.Rl) : (clientTry T t i rest).Rl := by
  have := rl_evalClient (T := T) i
  unfold clientTry; rl
theorem rl_detectClient : (detectClient T).Rl := by
  unfold detectClient
  exact rl_clientTry <| rl_clientTry <| rl_clientTry <| rl_clientTry <| rl_clientTry <| rl_clientTry <| .pure _

theorem rl_osVerLoop : ∀ l, (osVerLoop T l).Rl
  | [] => .pure _
  | v :: l => by
    have := rl_osVerLoop l
    unfold osVerLoop; rl
theorem rl_osEvalMatch (re : Re) (x : OSTuple) : (osEvalMatch re x).Rl := by unfold osEvalMatch; rl
theorem rl_osEvalVer (e : Entry64) : (osEvalVer T e).Rl := by unfold osEvalVer; rl; apply rl_osVerLoop
theorem rl_osLoop (a b : Bool) : ∀ l, (osLoop T a b l).Rl
  | [] => .pure _
  | v :: l => by
    have := rl_osLoop a b l
    unfold osLoop; rl
    · apply rl_osEvalMatch
    · apply rl_osEvalVer
theorem rl_detectOS : (detectOS T).Rl := by
  unfold detectOS; rl
  · apply rl_osLoop
  · rename_i o; cases o <;> rl

theorem rl_deviceLoop : ∀ l, (deviceLoop T l).Rl
  | [] => .pure _
  | v :: l => by
    have := rl_deviceLoop l
    unfold deviceLoop; rl
theorem rl_bufModel (raw : Bytes) : (bufModel raw).Rl := by
  have := rl_bufAppend raw
  unfold bufModel; rl
theorem rl_mneLoop (raw : Bytes) (m : List Int) (src : Bytes) : ∀ n p, (mneLoop raw m src n p).Rl
  | 0, _ => .ofOption _
  | n + 1, p => by
    have := rl_mneLoop raw m src n
    unfold mneLoop; rl
    · apply rl_bufAppend
    · dsimp only
      split <;> rl
      · apply rl_bufAppend
      · apply this
      · apply rl_bufAppend
theorem rl_mne (e : Entry64) : (deviceBufMNE T e).Rl := by
  unfold deviceBufMNE; rl
  apply rl_bufModel
theorem rl_mne1 (e : Entry64) (re : Re) : (deviceBufMNE1 T e re).Rl := by
  unfold deviceBufMNE1; rl
  split
  · rl
    · apply rl_bufAppend
    · apply rl_mneLoop
  · apply rl_bufModel
theorem rl_modelLoop (x : DeviceTuple) (d : DeviceType) : ∀ n i, (modelLoop T x d n i).Rl
  | 0, _ => .pure _
  | n + 1, i => by
    have := rl_modelLoop x d n
    unfold modelLoop; rl
    all_goals first | apply rl_mne1 | apply rl_mne | apply this
theorem rl_deviceFill (x : DeviceTuple) (d : DeviceType) : (deviceFill T x d).Rl := by
  unfold deviceFill; rl
  all_goals first | apply rl_mne1 | apply rl_mne | apply rl_modelLoop
theorem rl_evalDeviceBody (i : Nat) (d : DeviceType) : (evalDeviceBody T i d).Rl := by
  unfold evalDeviceBody; rl
  · apply rl_deviceLoop
  · rename_i o; cases o <;> rl
    apply rl_deviceFill
theorem rl_vendorFrag (b : VendorTuple) : ∀ n j, (vendorFragLoop T b n j).Rl
  | 0, _ => .pure _
  | n + 1, j => by
    have := rl_vendorFrag b n
    unfold vendorFragLoop; rl
    apply this
theorem rl_vendorLoop : ∀ l, (vendorLoop T l).Rl
  | [] => .pure _
  | v :: l => by
    have := rl_vendorLoop l
    unfold vendorLoop; rl
    apply rl_vendorFrag
theorem rl_deviceFallback : (deviceFallback T).Rl := by
  have := rl_vendorLoop (T := T) T.vrIdx
  unfold deviceFallback evalVendor; rl

/-! ### The same, in every schedule -/

/-- Answers of the cache: anything if `L`, otherwise no hit. -/
def Answers (L : Prop) (_ : Bytes) (r : GetResp) : Prop := L ∨ ∀ e, r ≠ .hit e

/-- No condition on what is stored. -/
def anyEntry (_ : Bytes) (_ : CacheEntry) : Prop := True

/-- `x` changes the buffer by recorded writes only, which are appends if there is no hit. -/
structure M.Rl {α : Type} (L : Prop) (x : M α) : Prop where
  tr : ∀ c, (x c).Safe (Answers L) anyEntry (fun r => Evol L c r.1)

namespace M.Rl
variable {L : Prop}
theorem lift {α : Type} {x : P α} (h : x.Rl) : M.Rl L (M.lift x) := ⟨fun c => (h.tr c).mono False.elim⟩
theorem pure {α : Type} (a : α) : M.Rl L (Pure.pure a : M α) := ⟨fun _ => .refl _⟩
theorem ofOption {α : Type} (o : Option α) : M.Rl L (M.ofOption o) := ⟨fun _ => .refl _⟩
theorem modify {g : Ctx → Ctx} (h : ∀ c, (g c).src = c.src) (h1 : ∀ c, (g c).buf = c.buf) (h2 : ∀ c, (g c).writes = c.writes) : M.Rl L (M.modify g) :=
  .lift (.modify h h1 h2)
theorem bind {α β : Type} {x : M α} {f : α → M β} (hx : x.Rl L) (hf : ∀ a, (f a).Rl L) : (x >>= f).Rl L := by
  constructor
  intro c
  rw [M.bind_apply]
  refine (hx.tr c).bind ?_
  rintro ⟨c', _ | a⟩ h
  · exact h
  · exact ((hf a).tr c').mono fun r hr => h.trans hr
theorem ctx {β : Type} {f : Ctx → M β} (hf : ∀ a, (f a).Rl L) : (M.ctx >>= f).Rl L := ⟨fun c => (hf c).tr c⟩
theorem when {p : Prop} [Decidable p] {x : M Unit} (h : x.Rl L) : (M.when p x).Rl L := by
  unfold M.when; split
  · exact h
  · exact .pure ()
theorem ite {α : Type} {p : Prop} [Decidable p] {x y : M α} (h : x.Rl L) (h' : y.Rl L) : (if p then x else y).Rl L := by split <;> assumption
theorem defer {α : Type} {d : Option α → M Unit} {x : M α} (hd : ∀ r, (d r).Rl L) (hx : x.Rl L) : (M.defer d x).Rl L := by
  constructor
  intro c
  refine (hx.tr c).bind ?_
  intro r hr
  refine ((hd r.2).tr r.1).bind ?_
  intro r' hr'
  exact hr.trans hr'
theorem map {α β : Type} {f : α → β} {x : M α} (h : x.Rl L) : (M.map f x).Rl L := .bind h fun _ => .pure _
end M.Rl

macro "mrl" : tactic => `(tactic| repeat' first
  | with_reducible assumption | with_reducible exact M.Rl.pure _ | with_reducible exact M.Rl.ofOption _
  | exact M.Rl.modify (fun c => rfl) (fun c => rfl) (fun c => rfl)
  | with_reducible refine M.Rl.ctx fun _ => ?_
  | with_reducible refine M.Rl.bind ?_ fun _ => ?_ | with_reducible refine M.Rl.when ?_ | with_reducible refine M.Rl.ite ?_ ?_)

section
variable {L : Prop}

theorem rl_frame {flag : Nat} {body : M Bool} (hb : body.Rl L) : (parseFrame flag body).Rl L := by
  have hf : (finishParse flag).Rl L := by
    constructor
    intro c
    exact ⟨trivial, .same rfl rfl rfl⟩
  constructor
  intro c
  unfold parseFrame
  simp only [M.ctx_bind, M.cacheGet_bind]
  intro r hr
  cases r with
  | miss => exact (M.Rl.defer (fun _ => hf) hb).tr c
  | nilEntry => exact .refl _
  | hit e =>
    have hL : L := hr.resolve_right fun h => h e rfl
    show Prog.Safe _ _ _ ((if e.bits.check flag then _ else _ : M Bool) c)
    split
    · exact ⟨rfl, [.load e.data], rfl, rfl, .inl hL⟩
    · exact (M.Rl.defer (fun _ => hf) hb).tr c

theorem rl_ensure {flag : Nat} {x : M Bool} (h : x.Rl L) : (ensure flag x).Rl L := by unfold ensure; mrl
theorem rl_client : (ensure flagClientDetect (parseClient T)).Rl L := rl_ensure (rl_frame (.lift rl_detectClient))
theorem rl_os : (ensure flagOSDetect (parseOS T)).Rl L := rl_ensure (rl_frame (.lift rl_detectOS))
theorem rl_getOS : (getOS T).Rl L := by
  have := rl_os (T := T) (L := L)
  unfold getOS; mrl
theorem rl_deviceTry {b : DeviceType} {i : Nat} {d : DeviceType} {rest : M Bool} (hr : rest.Rl L) : (deviceTry T b i d rest).Rl L := by
  have hdef : ∀ r, (evalDeviceDeferred T i r).Rl L := by
    intro r
    have := rl_getOS (T := T) (L := L)
    unfold evalDeviceDeferred
    split
    · exact .pure _
    · mrl
  have he : (evalDevice T i d).Rl L := .defer hdef (.lift (rl_evalDeviceBody i d))
  unfold deviceTry
  mrl
  rename_i o; cases o <;> mrl
theorem rl_device : (ensure flagDeviceDetect (parseDevice T)).Rl L := by
  refine rl_ensure (rl_frame ?_)
  unfold detectDevice
  exact rl_deviceTry <| rl_deviceTry <| rl_deviceTry <| rl_deviceTry <| rl_deviceTry <| rl_deviceTry <| rl_deviceTry <| rl_deviceTry <|
    .lift rl_deviceFallback

/-- GetModel, GetOSVersionString and GetOSVersion (its Suffix) may answer with a window of `c.buf`. -/
def Getter.inBuf (g : Getter) : Prop := g = .model ∨ g = .osVersionString ∨ g = .osVersion

/-- What is known of a window answered by `g`, the context being `c` afterwards. -/
def LAns.Sound (g : Getter) (c : Ctx) : LAns → Prop
  | .str l => l.Fits c ∧ (¬ g.inBuf → l.NotBuf)
  | .ver _ w => ∀ l, w = some l → l.Fits c ∧ (¬ g.inBuf → l.NotBuf)
  | .val _ => True

/-- What a string getter guarantees: windows fit. -/
structure Win (L : Prop) (Q : Loc → Prop) (x : M Loc) : Prop where
  tr : ∀ c, (x c).Safe (Answers L) anyEntry (fun r => Evol L c r.1 ∧ ∀ l, r.2 = some l → l.Fits r.1 ∧ Q l)

theorem Win.reader {Q : Loc → Prop} {x : M Unit} (hx : x.Rl L) {f : Ctx → M Loc}
    (hf : ∀ c, (f c c).Safe (Answers L) anyEntry (fun r => Evol L c r.1 ∧ ∀ l, r.2 = some l → l.Fits r.1 ∧ Q l)) :
    Win L Q (x >>= fun _ => M.ctx >>= f) := by
  constructor
  intro c
  rw [M.bind_apply]
  refine (hx.tr c).bind ?_
  rintro ⟨c', _ | a⟩ h
  · exact ⟨h, by simp⟩
  · exact (hf c').mono fun r hr => ⟨h.trans hr.1, hr.2⟩

/-- A window of a slice, post-processed. -/
theorem win_slice {Q : Loc → Prop} {c : Ctx} {o : Option Loc} {f : Loc → Loc} (h : ∀ l, o = some l → (f l).Fits c ∧ Q (f l)) :
    ((M.ofOption o >>= fun r => Pure.pure (f r)) c).Safe (Answers L) anyEntry (fun r => Evol L c r.1 ∧ ∀ l, r.2 = some l → l.Fits r.1 ∧ Q l) := by
  cases o with
  | none => exact ⟨.refl _, by simp⟩
  | some l => exact ⟨.refl _, fun l' hl => by cases hl; exact h l rfl⟩

theorem win_slice' {Q : Loc → Prop} {c : Ctx} {o : Option Loc} (h : ∀ l, o = some l → l.Fits c ∧ Q l) :
    ((M.ofOption o) c).Safe (Answers L) anyEntry (fun r => Evol L c r.1 ∧ ∀ l, r.2 = some l → l.Fits r.1 ∧ Q l) := ⟨.refl _, h⟩

theorem win_static {Q : Loc → Prop} {c : Ctx} {t : Bytes} (h : Q (.static t)) :
    ((Pure.pure (.static t) : M Loc) c).Safe (Answers L) anyEntry (fun r => Evol L c r.1 ∧ ∀ l, r.2 = some l → l.Fits r.1 ∧ Q l) :=
  ⟨.refl _, fun l' hl => by cases hl; exact ⟨trivial, h⟩⟩

theorem NotBuf.trim {l : Loc} (h : l.NotBuf) (x : UInt8) (c : Ctx) : (l.trim x c).NotBuf := h.sub _ _

theorem foldl_under (raw : Bytes) : ∀ b : Bytes, (raw.map fun x => BufOp.append [if x = 95 then 46 else x]).foldl BufOp.run b =
    b ++ raw.map fun x => if x = 95 then 46 else x := by
  induction raw with
  | nil => simp
  | cons x raw ih =>
    intro b
    simp only [List.map_cons, List.foldl_cons]
    rw [ih, BufOp.run, List.append_assoc, List.singleton_append]

theorem evol_under (c : Ctx) (raw : Bytes) : Evol L c { c with
    buf := c.buf ++ raw.map (fun b => if b = 95 then 46 else b),
    writes := c.writes ++ raw.map fun b => BufOp.append [if b = 95 then 46 else b] } := by
  refine ⟨rfl, _, rfl, (foldl_under raw c.buf).symm, .inr ?_⟩
  intro o ho
  obtain ⟨b, -, rfl⟩ := List.mem_map.mp ho
  trivial

theorem win_browserVersion : Win L Loc.NotBuf (getBrowserVersionStringL T) := by
  have hC := rl_client (T := T) (L := L)
  refine (Win.reader hC fun c => ?_)
  dsimp only
  have hf : (if c.check flagVerConstSrc = true then Loc.static T.crBuf else c.srcLoc).Fits c := fits_ite _ trivial Loc.fits_src
  have hb : (if c.check flagVerConstSrc = true then Loc.static T.crBuf else c.srcLoc).NotBuf := notBuf_ite _ trivial trivial
  split
  · refine win_slice (f := fun raw => Loc.trimRight 46 c (match indexByteAt (raw.text c) 47 0 with | some p => raw.sub (p + 1) (raw.len - (p + 1)) | none => raw)) ?_
    intro l hl
    obtain ⟨-, h2⟩ := afterSlash (Loc.fits_sliceE hf hl)
    refine ⟨(Loc.text_trimRight h2 46).2, Loc.NotBuf.sub ?_ _ _⟩
    have := Loc.notBuf_sliceE hb hl
    split
    · exact this.sub _ _
    · exact this
  · exact win_static trivial

theorem win_engineVersion : Win L Loc.NotBuf (getEngineVersionStringL T) := by
  have hC := rl_client (T := T) (L := L)
  refine (Win.reader hC fun c => ?_)
  split
  · exact win_slice' fun l hl => ⟨Loc.fits_sliceE Loc.fits_src hl, Loc.notBuf_sliceE (l := c.srcLoc) trivial hl⟩
  · exact win_static trivial

theorem win_osVersion : Win L (fun _ => True) (getOSVersionStringL T) := by
  have hO := rl_os (T := T) (L := L)
  refine (Win.reader hO fun c => ?_)
  dsimp only
  have hf : (if c.check flagOSVerBufSrc = true then Loc.static T.orBuf else c.srcLoc).Fits c := fits_ite _ trivial Loc.fits_src
  split
  · cases hs : (if c.check flagOSVerBufSrc = true then Loc.static T.orBuf else c.srcLoc).sliceE? c.osVersion64 with
    | none => exact ⟨.refl _, by simp⟩
    | some raw =>
      show Prog.Safe _ _ _ ((if (indexByte (raw.text c) 95).isSome = true then _ else _ : M Loc) c)
      split
      · refine ⟨evol_under c _, fun l hl => ?_⟩
        cases hl
        refine ⟨?_, trivial⟩
        simp only [Loc.Fits, List.length_append]
        omega
      · exact ⟨.refl _, fun l hl => by cases hl; exact ⟨Loc.fits_sliceE hf hs, trivial⟩⟩
  · exact win_static trivial

theorem Win.mono {Q Q' : Loc → Prop} (hq : ∀ l, Q l → Q' l) {x : M Loc} (h : Win L Q x) : Win L Q' x :=
  ⟨fun c => (h.tr c).mono fun _ hr => ⟨hr.1, fun l hl => ⟨(hr.2 l hl).1, hq l (hr.2 l hl).2⟩⟩⟩

theorem win_version {g : Getter} {get : Ctx → Version} {set : Ctx → Version → Ctx} (hs : ∀ c v, (set c v).src = c.src)
    (hb : ∀ c v, (set c v).buf = c.buf) (hw : ∀ c v, (set c v).writes = c.writes) {sL : M Loc} (h : Win L (fun l => ¬ g.inBuf → l.NotBuf) sL) (c : Ctx) :
    (versionL get set sL c).Safe (Answers L) anyEntry (fun r => Evol L c r.1 ∧ ∀ a, r.2 = some a → a.Sound g r.1) := by
  show Prog.Safe _ _ _ ((if (get c).p = true then _ else _ : M LAns) c)
  split
  · exact ⟨.refl _, fun a ha => by cases ha; nofun⟩
  · refine (h.tr c).bind ?_
    rintro ⟨c', _ | l⟩ ⟨h1, h2⟩
    · exact ⟨h1, by simp⟩
    · refine ⟨h1.trans (.same (hs _ _) (hb _ _) (hw _ _)), fun a ha => ?_⟩
      cases ha
      intro w hp
      have hq : PartClosed (fun l => l.Fits c' ∧ (¬ g.inBuf → l.NotBuf)) c' := ⟨fun l off n hl ho => ⟨hl.1.sub ho, fun hg => (hl.2 hg).sub _ _⟩⟩
      obtain ⟨k1, k2⟩ := parseL_part hq (h2 l rfl) hp
      refine ⟨?_, k2⟩
      cases w with
      | static t => trivial
      | src lo n => show lo + n ≤ (set c' _).src.length; rw [hs]; exact k1
      | buf lo n => show lo + n ≤ (set c' _).buf.length; rw [hb]; exact k1

theorem sound_getter (g : Getter) (c : Ctx) : (g.progL T c).Safe (Answers L) anyEntry
    (fun r => Evol L c r.1 ∧ ∀ a, r.2 = some a → a.Sound g r.1) := by
  have str : ∀ {x : M Loc} {g : Getter} (c : Ctx), Win L (fun l => ¬ g.inBuf → l.NotBuf) x → (M.map LAns.str x c).Safe (Answers L) anyEntry
      (fun r => Evol L c r.1 ∧ ∀ a, r.2 = some a → a.Sound g r.1) := by
    intro x g c hx
    refine (hx.tr c).bind ?_
    rintro ⟨c', _ | l⟩ ⟨h1, h2⟩
    · exact ⟨h1, by simp⟩
    · exact ⟨h1, fun a ha => by cases ha; exact h2 l rfl⟩
  have val : ∀ {x : M Ans} {g : Getter} (c : Ctx), x.Rl L → (M.map LAns.val x c).Safe (Answers L) anyEntry
      (fun r => Evol L c r.1 ∧ ∀ a, r.2 = some a → a.Sound g r.1) := by
    intro x g c hx
    refine (hx.tr c).bind ?_
    rintro ⟨c', _ | l⟩ h1
    · exact ⟨h1, by simp⟩
    · exact ⟨h1, fun a ha => by cases ha; trivial⟩
  have hC := rl_client (T := T) (L := L)
  have hD := rl_device (T := T) (L := L)
  have hO := rl_os (T := T) (L := L)
  have nb : ∀ {l : Loc}, Loc.NotBuf l → ¬ Getter.inBuf g → Loc.NotBuf l := fun h _ => h
  cases g with
  | userAgent => exact str c ⟨fun c => ⟨.refl _, fun l hl => by cases hl; exact ⟨Loc.fits_src, fun _ => trivial⟩⟩⟩
  | clientType =>
    refine val c (.map ?_)
    unfold getClientType; mrl
  | browser =>
    refine str c (Win.reader hC fun c => ?_)
    generalize (if c.hintHash ≠ 0 then _ else _ : Entry64 × Bytes) = eb
    split
    · exact win_slice' fun l hl => ⟨Loc.fits_sliceE (l := .static _) trivial hl, fun _ => Loc.notBuf_sliceE (l := .static _) trivial hl⟩
    · exact win_static fun _ => trivial
  | browserVersion => exact win_version (get := (·.clientVersion)) (set := fun c v => { c with clientVersion := v }) (fun _ _ => rfl) (fun _ _ => rfl) (fun _ _ => rfl) (win_browserVersion.mono fun _ h _ => h) c
  | browserVersionString => exact str c (win_browserVersion.mono fun _ h _ => h)
  | engine =>
    refine str c (Win.reader hC fun c => ?_)
    split
    · exact win_static fun _ => trivial
    · split
      · exact win_slice' fun l hl => ⟨Loc.fits_sliceE (l := .static _) trivial hl, fun _ => Loc.notBuf_sliceE (l := .static _) trivial hl⟩
      · exact win_static fun _ => trivial
  | engineVersion => exact win_version (get := (·.engineVersion)) (set := fun c v => { c with engineVersion := v }) (fun _ _ => rfl) (fun _ _ => rfl) (fun _ _ => rfl) (win_engineVersion.mono fun _ h _ => h) c
  | engineVersionString => exact str c (win_engineVersion.mono fun _ h _ => h)
  | deviceType =>
    refine val c (.map ?_)
    unfold getDeviceType; mrl
  | brand =>
    refine str c (Win.reader hD fun c => ?_)
    dsimp only
    split
    · exact win_slice fun l hl => ⟨(Loc.text_trim (Loc.fits_sliceE (l := .static _) trivial hl) 32).2,
        fun _ => (Loc.notBuf_sliceE (l := .static _) trivial hl).sub _ _⟩
    · exact win_static fun _ => trivial
  | model =>
    refine str c (Win.reader hD fun c => ?_)
    split
    · exact win_slice fun l hl => ⟨(Loc.text_trim (Loc.fits_sliceE Loc.fits_buf hl) 32).2, fun h => absurd (.inl rfl) h⟩
    · exact win_static fun _ => trivial
  | os =>
    refine str c (Win.reader hO fun c => ?_)
    dsimp only
    have hf : (if c.check flagOSBufSrc = true then c.srcLoc else Loc.static T.orBuf).Fits c := fits_ite _ Loc.fits_src trivial
    have hb : (if c.check flagOSBufSrc = true then c.srcLoc else Loc.static T.orBuf).NotBuf := notBuf_ite _ trivial trivial
    split
    · exact win_slice fun l hl => ⟨(Loc.text_trim (Loc.fits_sliceE hf hl) 32).2, fun _ => (Loc.notBuf_sliceE hb hl).sub _ _⟩
    · exact win_static fun _ => trivial
  | osVersion => exact win_version (get := (·.osVersion)) (set := fun c v => { c with osVersion := v }) (fun _ _ => rfl) (fun _ _ => rfl) (fun _ _ => rfl) (win_osVersion.mono fun _ _ hg => absurd (.inr (.inr rfl)) hg) c
  | osVersionString => exact str c (win_osVersion.mono fun _ _ hg => absurd (.inr (.inl rfl)) hg)

end

end Verif
