import Verif.Proofs.ShippedPattern
import Verif.Proofs.ShippedDevice
import Verif.Proofs.PatternWords
/-
The names in the shipped tables.
-/
set_option maxRecDepth 20000
namespace Verif.Data

open Verif.Regexp Verif.Compiler

/-- The bytes of a buffer from an offset on. -/
def subN (cs : List Chunk) : Nat → Nat → List Nat
  | _, 0 => []
  | lo, n + 1 => ((byteAt cs lo).getD 256) :: subN cs (lo + 1) n

/-- The lowest `n` bytes of a number. -/
def digits : Nat → Nat → List Nat
  | 0, _ => []
  | n + 1, x => x % 256 :: digits n (x / 256)

/-- The same, taken out of a chunk at once where possible. -/
def cutN : List Chunk → Nat → Nat → List Nat
  | [], lo, n => subN [] lo n
  | c :: cs, lo, n =>
    bif Nat.ble (lo + n) c.n then digits n ((c.x >>> (8 * lo)) % 2 ^ (8 * n))
    else bif Nat.ble c.n lo then cutN cs (lo - c.n) n else subN (c :: cs) lo n

/-- The text at `e`. -/
def textN (cs : List Chunk) (e : Entry64) : List Nat := cutN cs (e.toNat / 4294967296) (e.toNat % 4294967296 - e.toNat / 4294967296)

theorem subN_skip (c : Chunk) (cs : List Chunk) (n : Nat) : ∀ {lo : Nat}, c.n ≤ lo → subN (c :: cs) lo n = subN cs (lo - c.n) n := by
  induction n with
  | zero => intros; rfl
  | succ n ih =>
    intro lo h
    have e : byteAt (c :: cs) lo = byteAt cs (lo - c.n) := by
      rw [byteAt]
      cases hb : Nat.blt lo c.n with
      | false => rfl
      | true => have := blt_lt hb; omega
    rw [subN, subN, ih (by omega), e, show lo + 1 - c.n = lo - c.n + 1 by omega]

theorem subN_digits (c : Chunk) (cs : List Chunk) (n : Nat) : ∀ {lo : Nat}, lo + n ≤ c.n → subN (c :: cs) lo n = digits n ((c.x >>> (8 * lo)) % 2 ^ (8 * n)) := by
  induction n with
  | zero => intros; rfl
  | succ n ih =>
    intro lo h
    have hb : Nat.blt lo c.n = true := Nat.ble_eq_true_of_le (by omega)
    rw [subN, byteAt, hb, ih (by omega), digits]
    have e : 2 ^ (8 * (n + 1)) = 256 * 2 ^ (8 * n) := by rw [Nat.mul_add, Nat.pow_add, Nat.mul_comm]
    rw [e, Nat.mod_mul_right_mod, Nat.mod_mul_right_div_self]
    have e2 : c.x >>> (8 * (lo + 1)) = c.x >>> (8 * lo) / 256 := by
      rw [Nat.mul_add, Nat.shiftRight_add, Nat.shiftRight_eq_div_pow _ (8 * 1)]
    rw [e2]
    rfl

theorem cutN_eq (cs : List Chunk) : ∀ lo n, cutN cs lo n = subN cs lo n := by
  induction cs with
  | nil => intros; rfl
  | cons c cs ih =>
    intro lo n
    rw [cutN]
    cases h1 : Nat.ble (lo + n) c.n with
    | true => exact (subN_digits c cs n (Nat.le_of_ble_eq_true h1)).symm
    | false =>
      cases h2 : Nat.ble c.n lo with
      | true => exact (ih _ _).trans (subN_skip c cs n (Nat.le_of_ble_eq_true h2)).symm
      | false => rfl

theorem subN_eq {cs : List Chunk} {t a z : Bytes} (h : buf cs = a ++ t ++ z) : subN cs a.length t.length = t.map UInt8.toNat := by
  induction t generalizing a with
  | nil => rfl
  | cons b t ih =>
    have h1 : buf cs = (a ++ [b]) ++ t ++ z := by rw [h]; simp
    have := ih h1
    rw [List.length_append, List.length_singleton] at this
    rw [List.length_cons, subN, this, byteAt_eq, h]
    simp

theorem textN_eq {cs : List Chunk} {e : Entry64} {t : Bytes} (h : Text (buf cs) e t) : textN cs e = t.map UInt8.toNat := by
  obtain ⟨a, z, h1, h2, h3⟩ := h
  unfold textN
  have e1 : e.toNat / 4294967296 = a.length := h2
  have e2 : e.toNat % 4294967296 = a.length + t.length := h3
  rw [e1, e2, Nat.add_sub_cancel_left, cutN_eq]
  exact subN_eq h1

theorem map_toNat_inj {s t : Bytes} (h : s.map UInt8.toNat = t.map UInt8.toNat) : s = t :=
  List.map_inj_right (fun _ _ => UInt8.toNat_inj.mp) |>.mp h

/-- A name: not empty, printable, no dollar sign in it and no space at its ends. -/
def Proper (s : Bytes) : Prop := s ≠ [] ∧ (∀ c ∈ s, 32 ≤ c.toNat ∧ c ≠ 127 ∧ c ≠ 36) ∧ s.head? ≠ some 32 ∧ s.getLast? ≠ some 32

def properN (l : List Nat) : Bool :=
  !l.isEmpty && (l.all fun c => Nat.ble 32 c && !Nat.beq c 127 && !Nat.beq c 36) && !(l.head? == some 32) && !(l.getLast? == some 32)

theorem proper_of {s : Bytes} (h : properN (s.map UInt8.toNat) = true) : Proper s := by
  simp only [properN, Bool.and_eq_true, Bool.not_eq_true', List.all_eq_true, List.isEmpty_eq_false_iff, beq_eq_false_iff_ne, ne_eq,
    List.mem_map, forall_exists_index, and_imp, forall_apply_eq_imp_iff₂, List.head?_map, List.getLast?_map, List.map_eq_nil_iff] at h
  obtain ⟨⟨⟨h1, h2⟩, h3⟩, h4⟩ := h
  refine ⟨h1, fun c hc => ?_, fun e => h3 (by rw [e]; rfl), fun e => h4 (by rw [e]; rfl)⟩
  obtain ⟨⟨g1, g2⟩, g3⟩ := h2 c hc
  refine ⟨Nat.le_of_ble_eq_true g1, ?_, ?_⟩
  · rintro rfl; cases g2
  · rintro rfl; cases g3

theorem proper_text {cs : List Chunk} {e : Entry64} {t : Bytes} (h : properN (textN cs e) = true) (ht : Text (buf cs) e t) : Proper t :=
  proper_of (by rw [← textN_eq ht]; exact h)

theorem Proper.trimmed {raw s : Bytes} (h : Proper raw) (ht : Trimmed raw s) : s = raw := by
  obtain ⟨a, z, e, -, -⟩ := ht
  obtain ⟨-, -, h1, h2⟩ := h
  have ha : a = 0 := by
    rcases a with _ | a
    · rfl
    · rw [e, List.replicate_succ] at h1
      exact absurd rfl h1
  have hz : z = 0 := by
    rcases z with _ | z
    · rfl
    · rw [e, List.replicate_succ', ← List.append_assoc, List.getLast?_concat] at h2
      exact absurd rfl h2
  subst ha hz
  rw [e]; simp

/-- The client rules whose names have a dollar sign: regexps. -/
def crDollar : List Nat := [824, 876, 1194, 1316, 1317, 1318]

/-- Name of a client rule. -/
def crNameB (v : ClientTuple) : Bool :=
  v.browser64 != 0 && (properN (textN crBuf v.browser64) || (!decide (v.matchRI < 0) && crDollar.contains v.matchRI.toNat))

theorem crNames_ok : ∀ rows ∈ [crIdx1, crIdx2, crIdx3, crIdx4, crIdx5, crIdx6], rows.all crNameB = true := by decide +kernel

theorem hrNames_ok : (hrIdx.all fun x => properN (textN hrBuf (.ofNat x.2))) = true := by decide +kernel

theorem vrNames_ok : (vrIdx.all fun v => v.brand64 != 0 && properN (textN vrBuf v.brand64)) = true := by decide +kernel

def drNameB (v : DeviceTuple) : Bool := v.brand64 != 0 && properN (textN drBuf v.brand64)

theorem drNames0 : drIdx0.all drNameB = true := by decide +kernel
theorem drNames1 : drIdx1.all drNameB = true := by decide +kernel
theorem drNames2 : drIdx2.all drNameB = true := by decide +kernel
theorem drNames3 : drIdx3.all drNameB = true := by decide +kernel
theorem drNames4 : drIdx4.all drNameB = true := by decide +kernel
theorem drNames5 : drIdx5.all drNameB = true := by decide +kernel
theorem drNames6 : drIdx6.all drNameB = true := by decide +kernel
theorem drNames7 : drIdx7.all drNameB = true := by decide +kernel

theorem drNames_ok : ∀ rows ∈ [drIdx0, drIdx1, drIdx2, drIdx3, drIdx4, drIdx5, drIdx6, drIdx7], rows.all drNameB = true := by
  intro rows hr
  simp only [List.mem_cons, List.not_mem_nil, or_false] at hr
  rcases hr with rfl | rfl | rfl | rfl | rfl | rfl | rfl | rfl
  · exact drNames0
  · exact drNames1
  · exact drNames2
  · exact drNames3
  · exact drNames4
  · exact drNames5
  · exact drNames6
  · exact drNames7

/-- The engines. -/
def renderEngines : List Bytes :=
  [ascii "Arachne", ascii "ArkWeb", ascii "Blink", ascii "Clecko", ascii "Dillo", ascii "Edge", ascii "EkiohFlow", ascii "Elektra", ascii "Gecko",
   ascii "Goanna", ascii "KHTML", ascii "LibWeb", ascii "Maple", ascii "NetFront", ascii "NetSurf", ascii "Presto", ascii "Servo", ascii "Text-based",
   ascii "Trident", ascii "WebKit", ascii "iCab"]

def engineB (e : Entry64) : Bool := (textN crBuf e).isEmpty || renderEngines.contains ((textN crBuf e).map UInt8.ofNat)

theorem crEngines_ok : ((crIdx0.all fun v => engineB v.browser64) && (crIdx1.all fun v => engineB v.engine64) &&
    crEf.all fun f => engineB f.default && f.cases.all fun x => engineB x.2) = true := by decide +kernel

/-- The names of operating systems in the rules. -/
def osNames : List Bytes :=
  [ascii "AIX", ascii "AOSC OS", ascii "AROS", ascii "Alpine Linux", ascii "Amazon Linux", ascii "AmigaOS", ascii "Android", ascii "Android TV",
   ascii "ArcaOS", ascii "Arch Linux", ascii "Armadillo OS", ascii "Azure Linux", ascii "BSD", ascii "Bada", ascii "Baidu Yi", ascii "BeOS",
   ascii "BlackBerry OS", ascii "BlackBerry Tablet OS", ascii "Bliss OS", ascii "Brew", ascii "BrightSignOS", ascii "Caixa M\xc3\xa1gica",
   ascii "CentOS", ascii "CentOS Stream", ascii "China OS", ascii "Chrome OS", ascii "Clear Linux OS", ascii "ClearOS Mobile", ascii "Contiki",
   ascii "Coolita OS", ascii "CyanogenMod", ascii "DVKBuntu", ascii "Debian", ascii "Deepin", ascii "DragonFly", ascii "ElectroBSD", ascii "EulerOS",
   ascii "FRITZ!OS", ascii "Fedora", ascii "Fenix", ascii "Fire OS", ascii "Firefox OS", ascii "Foresight Linux", ascii "FreeBSD", ascii "Fuchsia",
   ascii "FydeOS", ascii "GENIX", ascii "GEOS", ascii "GNU/Linux", ascii "Gentoo", ascii "GhostBSD", ascii "Google TV", ascii "GridOS",
   ascii "HELIX OS", ascii "HP-UX", ascii "Haiku OS", ascii "HarmonyOS", ascii "HasCodingOS", ascii "IRIX", ascii "Inferno", ascii "Java ME",
   ascii "Joli OS", ascii "KIN OS", ascii "KaiOS", ascii "Kali", ascii "Kanotix", ascii "KolibriOS", ascii "KreaTV", ascii "LeafOS",
   ascii "LindowsOS", ascii "Lineage OS", ascii "Linpus", ascii "Linspire", ascii "Liri OS", ascii "Loongnix", ascii "Lumin OS", ascii "LuneOS",
   ascii "MINIX", ascii "MRE", ascii "MTK / Nucleus", ascii "Mac", ascii "Maemo", ascii "Mageia", ascii "Mandriva", ascii "MeeGo",
   ascii "Meta Horizon", ascii "MildWild", ascii "Mint", ascii "Mocor OS", ascii "MocorDroid", ascii "MorphOS", ascii "Motorola EZX",
   ascii "NEWS-OS", ascii "NeXTSTEP", ascii "NetBSD", ascii "Nintendo", ascii "Nintendo Mobile", ascii "Nova", ascii "NuttX", ascii "OS/2",
   ascii "OSF1", ascii "OpenBSD", ascii "OpenHarmony", ascii "OpenVMS", ascii "OpenVZ", ascii "OpenWrt", ascii "Opera TV", ascii "Oracle Linux",
   ascii "Ordissimo", ascii "Orsay", ascii "PCLinuxOS", ascii "PICO OS", ascii "Pardus", ascii "Plan 9", ascii "Plasma Mobile", ascii "PlayStation",
   ascii "PlayStation Portable", ascii "Proxmox VE", ascii "Puffin OS", ascii "PureOS", ascii "Qtopia", ascii "REX", ascii "RISC OS",
   ascii "RTOS & Next", ascii "Raspberry Pi OS", ascii "Raspbian", ascii "RazoDroiD", ascii "Red Hat", ascii "Red Star", ascii "RedOS",
   ascii "Remix OS", ascii "Resurrection Remix OS", ascii "Revenge OS", ascii "Rocky Linux", ascii "Roku OS", ascii "Rosa", ascii "RouterOS",
   ascii "SUSE", ascii "Sailfish OS", ascii "Scientific Linux", ascii "SeewoOS", ascii "SerenityOS", ascii "Sirin OS", ascii "Smartisan OS",
   ascii "Solaris", ascii "Star-Blade OS", ascii "Syllable", ascii "Symbian", ascii "Symbian OS", ascii "Symbian OS Series 40",
   ascii "Symbian OS Series 60", ascii "Symbian^3", ascii "TencentOS", ascii "ThreadX", ascii "TiVo OS", ascii "Titan OS", ascii "Tizen",
   ascii "TmaxOS", ascii "Turbolinux", ascii "ULTRIX", ascii "UOS", ascii "Ubuntu", ascii "VIDAA", ascii "VectorLinux", ascii "ViziOS",
   ascii "Wear OS", ascii "WebTV", ascii "Webian", ascii "Whale OS", ascii "Windows", ascii "Windows CE", ascii "Windows IoT",
   ascii "Windows Mobile", ascii "Windows Phone", ascii "Windows RT", ascii "WoPhone", ascii "Xbox", ascii "YunOS", ascii "Zenwalk", ascii "ZorinOS",
   ascii "blackPanther OS", ascii "elementary OS", ascii "gNewSense", ascii "iOS", ascii "iPadOS", ascii "moonOS", ascii "palmOS", ascii "risingOS",
   ascii "tvOS", ascii "watchOS", ascii "webOS"]

/-- The names captured from the user agent. -/
def distroNames : List Bytes :=
  [ascii "Debian", ascii "Knoppix", ascii "Mint", ascii "Ubuntu", ascii "Kubuntu", ascii "Xubuntu", ascii "Lubuntu", ascii "Fedora", ascii "Red Hat",
   ascii "Mandriva", ascii "Gentoo", ascii "Sabayon", ascii "Slackware", ascii "openSUSE", ascii "SUSE", ascii "CentOS", ascii "BackTrack",
   ascii "Freebox", ascii "ASPLinux"]

/-- The rules that capture the name. -/
def orNamed : List Nat := [211, 213]

def osNameB (v : OSTuple) : Bool :=
  (decide (v.nameSI = -1) && osNames.contains ((textN orBuf v.name64).map UInt8.ofNat)) ||
  (decide (v.nameSI = 1) && !decide (v.matchRI < 0) && orNamed.contains v.matchRI.toNat)

theorem orNames_ok : orOs.all osNameB = true := by decide +kernel

/-- The first group encloses the distributions, and every match passes through it. -/
def distroB (c : List Chunk) : Bool :=
  Nat.ble 1 (groups (buf c)) && match parse (buf c) with
  | none => false
  | some rx => must 1 rx && (insides 1 rx).all fun x => match words x with
    | none => false
    | some ws => ws.all fun w => (distroNames.map fun n => n.map UInt8.toNat).contains w

theorem distros_ok : ∀ k ∈ orNamed, (orRe[k]?).any distroB = true := by decide +kernel

/-- A literal model rule has no template. -/
def dmPlainB (v : ModelTuple) : Bool :=
  !decide (v.matchRI < 0) || Nat.beq (v.match64.toNat % 4294967296) (v.match64.toNat / 4294967296) || !(textN drBuf v.model64).contains 36

theorem dmPlain_0 : drDm_0.all dmPlainB = true := by decide +kernel
theorem dmPlain_1 : drDm_1.all dmPlainB = true := by decide +kernel
theorem dmPlain_2 : drDm_2.all dmPlainB = true := by decide +kernel
theorem dmPlain_3 : drDm_3.all dmPlainB = true := by decide +kernel
theorem dmPlain_4 : drDm_4.all dmPlainB = true := by decide +kernel
theorem dmPlain_5 : drDm_5.all dmPlainB = true := by decide +kernel
theorem dmPlain_6 : drDm_6.all dmPlainB = true := by decide +kernel
theorem dmPlain_7 : drDm_7.all dmPlainB = true := by decide +kernel
theorem dmPlain_8 : drDm_8.all dmPlainB = true := by decide +kernel
theorem dmPlain_9 : drDm_9.all dmPlainB = true := by decide +kernel
theorem dmPlain_10 : drDm_10.all dmPlainB = true := by decide +kernel
theorem dmPlain_11 : drDm_11.all dmPlainB = true := by decide +kernel
theorem dmPlain_12 : drDm_12.all dmPlainB = true := by decide +kernel
theorem dmPlain_13 : drDm_13.all dmPlainB = true := by decide +kernel
theorem dmPlain_14 : drDm_14.all dmPlainB = true := by decide +kernel
theorem dmPlain_15 : drDm_15.all dmPlainB = true := by decide +kernel
theorem dmPlain_16 : drDm_16.all dmPlainB = true := by decide +kernel
theorem dmPlain_17 : drDm_17.all dmPlainB = true := by decide +kernel
theorem dmPlain_18 : drDm_18.all dmPlainB = true := by decide +kernel
theorem dmPlain_19 : drDm_19.all dmPlainB = true := by decide +kernel
theorem dmPlain_20 : drDm_20.all dmPlainB = true := by decide +kernel
theorem dmPlain_21 : drDm_21.all dmPlainB = true := by decide +kernel
theorem dmPlain_22 : drDm_22.all dmPlainB = true := by decide +kernel
theorem dmPlain_23 : drDm_23.all dmPlainB = true := by decide +kernel
theorem dmPlain_24 : drDm_24.all dmPlainB = true := by decide +kernel
theorem dmPlain_25 : drDm_25.all dmPlainB = true := by decide +kernel
theorem dmPlain_26 : drDm_26.all dmPlainB = true := by decide +kernel
theorem dmPlain_27 : drDm_27.all dmPlainB = true := by decide +kernel
theorem dmPlain_28 : drDm_28.all dmPlainB = true := by decide +kernel
theorem dmPlain_29 : drDm_29.all dmPlainB = true := by decide +kernel
theorem dmPlain_30 : drDm_30.all dmPlainB = true := by decide +kernel
theorem dmPlain_31 : drDm_31.all dmPlainB = true := by decide +kernel
theorem dmPlain_32 : drDm_32.all dmPlainB = true := by decide +kernel

theorem plain_append {a b : List ModelTuple} (h : a.all dmPlainB = true) (h' : b.all dmPlainB = true) : (a ++ b).all dmPlainB = true := by
  rw [List.all_append, h, h']; rfl

theorem drDm_plain : drDm.all dmPlainB = true :=
  plain_append (plain_append (plain_append (plain_append (plain_append (plain_append (plain_append (plain_append (plain_append (plain_append (plain_append (plain_append (plain_append (plain_append (plain_append (plain_append (plain_append (plain_append (plain_append (plain_append (plain_append (plain_append (plain_append (plain_append (plain_append (plain_append (plain_append (plain_append (plain_append (plain_append (plain_append (plain_append dmPlain_0 dmPlain_1) dmPlain_2) dmPlain_3) dmPlain_4) dmPlain_5) dmPlain_6) dmPlain_7) dmPlain_8) dmPlain_9) dmPlain_10) dmPlain_11) dmPlain_12) dmPlain_13) dmPlain_14) dmPlain_15) dmPlain_16
   ) dmPlain_17) dmPlain_18) dmPlain_19) dmPlain_20) dmPlain_21) dmPlain_22) dmPlain_23) dmPlain_24) dmPlain_25) dmPlain_26) dmPlain_27) dmPlain_28) dmPlain_29) dmPlain_30) dmPlain_31) dmPlain_32

/-- The parts of the table of models. -/
def dmParts : List (List ModelTuple) :=
  [drDm_0, drDm_1, drDm_2, drDm_3, drDm_4, drDm_5, drDm_6, drDm_7, drDm_8, drDm_9, drDm_10, drDm_11, drDm_12, drDm_13, drDm_14, drDm_15, drDm_16,
   drDm_17, drDm_18, drDm_19, drDm_20, drDm_21, drDm_22, drDm_23, drDm_24, drDm_25, drDm_26, drDm_27, drDm_28, drDm_29, drDm_30, drDm_31, drDm_32]

theorem dmParts_flatten : drDm = dmParts.flatten := by
  unfold drDm dmParts
  simp only [List.flatten_cons, List.flatten_nil, List.append_assoc, List.append_nil]

/-- Row of a table in parts of 500 rows. -/
def partGet {α : Type} : List (List α) → Nat → Option α
  | [], _ => none
  | l :: r, i => bif Nat.blt i 500 then l[i]? else partGet r (i - 500)

theorem partGet_eq {α : Type} : ∀ {ls : List (List α)} {i : Nat}, (∀ l ∈ ls.dropLast, l.length = 500) → i < 500 * ls.length → (ls.flatten)[i]? = partGet ls i
  | [], i, _, h => by simp at h
  | [l], i, _, h => by
    have hb : Nat.blt i 500 = true := Nat.ble_eq_true_of_le (by simp at h; omega)
    rw [partGet, hb]; simp
  | l :: l' :: r, i, hl, h => by
    rw [partGet, List.flatten_cons]
    have hlen : l.length = 500 := hl l (by simp)
    cases hb : Nat.blt i 500 with
    | true => exact List.getElem?_append_left (by rw [hlen]; exact blt_lt hb)
    | false =>
      have hge : 500 ≤ i := by
        refine Classical.byContradiction fun hlt => ?_
        have : Nat.blt i 500 = true := Nat.ble_eq_true_of_le (by omega)
        rw [hb] at this; cases this
      rw [List.getElem?_append_right (by omega), hlen]
      refine partGet_eq (fun x hx => hl x ?_) ?_
      · rw [List.dropLast_cons_cons]; exact List.mem_cons_of_mem _ hx
      · simp only [List.length_cons] at h ⊢; omega

theorem dmParts_len : ∀ l ∈ dmParts.dropLast, l.length = 500 := by decide +kernel

theorem drDm_get {i : Nat} (h : i < 16500) : drDm[i]? = partGet dmParts i := by
  rw [dmParts_flatten]
  exact partGet_eq dmParts_len h

/-- The model of a literal device rule with one model is no template. -/
def singlePlainB (v : DeviceTuple) : Bool :=
  !decide (v.matchRI < 0) || decide (v.modelSI < 0) || (Nat.blt v.modelSI.toNat 16500 && match partGet dmParts v.modelSI.toNat with
    | none => true
    | some m => !(textN drBuf m.model64).contains 36)

theorem singles_plain : ∀ rows ∈ [drIdx0, drIdx1, drIdx2, drIdx3, drIdx4, drIdx5, drIdx6, drIdx7], rows.all singlePlainB = true := by decide +kernel

end Verif.Data
