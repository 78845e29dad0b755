import Verif.Proofs.Intern
import Verif.Proofs.Unique
import Verif.Spec.RuleFiles
import Verif.Props.Compiler
/-
From the meaning of table rows to the meaning of rules.
-/
namespace Verif.Compiler

/-! ### Lists -/

theorem All2.first {α β : Type} {R : α → β → Prop} {l : List α} {m : List β} {p : α → Prop} {p' : β → Prop} (h : All2 R l m)
    (hp : ∀ a b, a ∈ l → R a b → (p' b ↔ p a)) {b : β} (hf : First p' m b) : ∃ a, First p l a ∧ R a b := by
  obtain ⟨x, z, rfl, hb, hx⟩ := hf
  have hlen := h.1
  simp only [List.length_append, List.length_cons] at hlen
  have hlt : x.length < l.length := by omega
  have hR : R l[x.length] b := h.2 x.length _ _ (List.getElem?_eq_getElem hlt) (by simp)
  refine ⟨l[x.length], ⟨l.take x.length, l.drop (x.length + 1), ?_, ?_, fun y hy => ?_⟩, hR⟩
  · rw [← List.drop_eq_getElem_cons hlt, List.take_append_drop]
  · exact (hp _ _ (List.getElem_mem hlt) hR).mp hb
  · obtain ⟨i, hi, rfl⟩ := List.getElem_of_mem hy
    rw [List.length_take] at hi
    rw [List.getElem_take]
    have hix : i < x.length := by omega
    have hR' : R l[i] x[i] := h.2 i _ _ (List.getElem?_eq_getElem (by omega)) (by rw [List.getElem?_append_left hix]; exact List.getElem?_eq_getElem hix)
    intro hpy
    exact hx _ (List.getElem_mem hix) ((hp _ _ (List.getElem_mem (by omega)) hR').mpr hpy)

theorem All2.last {α β : Type} {R : α → β → Prop} {l : List α} {m : List β} {p : α → Prop} {p' : β → Prop} (h : All2 R l m)
    (hp : ∀ a b, a ∈ l → R a b → (p' b ↔ p a)) {b : β} (hf : Last p' m b) : ∃ a, Last p l a ∧ R a b := by
  obtain ⟨x, z, rfl, hb, hz⟩ := hf
  have hlen := h.1
  simp only [List.length_append, List.length_cons] at hlen
  have hlt : x.length < l.length := by omega
  have hR : R l[x.length] b := h.2 x.length _ _ (List.getElem?_eq_getElem hlt) (by simp)
  refine ⟨l[x.length], ⟨l.take x.length, l.drop (x.length + 1), ?_, ?_, fun y hy => ?_⟩, hR⟩
  · rw [← List.drop_eq_getElem_cons hlt, List.take_append_drop]
  · exact (hp _ _ (List.getElem_mem hlt) hR).mp hb
  · obtain ⟨i, hi, rfl⟩ := List.getElem_of_mem hy
    rw [List.length_drop] at hi
    rw [List.getElem_drop]
    have hiz : i < z.length := by omega
    have hR' : R (l[x.length + 1 + i]'(by omega)) z[i] := by
      refine h.2 (x.length + 1 + i) _ _ (List.getElem?_eq_getElem (by omega)) ?_
      rw [List.getElem?_append_right (by omega), show x.length + 1 + i - x.length = i + 1 by omega, List.getElem?_cons_succ]
      exact List.getElem?_eq_getElem hiz
    intro hpy
    exact hz _ (List.getElem_mem hiz) ((hp _ _ (List.getElem_mem (by omega)) hR').mpr hpy)

theorem All2.none {α β : Type} {R : α → β → Prop} {l : List α} {m : List β} {p : α → Prop} {p' : β → Prop} (h : All2 R l m)
    (hp : ∀ a b, a ∈ l → R a b → (p' b ↔ p a)) (hn : ∀ b ∈ m, ¬ p' b) : ∀ a ∈ l, ¬ p a := by
  intro a ha hpa
  obtain ⟨i, hi⟩ := List.getElem?_of_mem ha
  obtain ⟨b, hb, hR⟩ := all2_range h hi
  exact hn b (List.mem_of_getElem? hb) ((hp a b ha hR).mpr hpa)

theorem Range.eq_rows {α : Type} {l : List α} {e : Entry64} {ws ws' : List α} (h : Range l e ws) (h' : Rows l e ws') : ws' = ws := by
  obtain ⟨a, b, e1, e2, e3⟩ := h
  obtain ⟨a', b', e1', e2', e3'⟩ := h'
  have h1 : a.length = a'.length := by omega
  have h2 : ws.length = ws'.length := by omega
  rw [e1, List.append_assoc, List.append_assoc] at e1'
  obtain ⟨_, k⟩ := List.append_inj e1' h1
  exact (List.append_inj k h2).1.symm

theorem Range.eq_range64 {α : Type} {l : List α} {e : Entry64} {ws : List α} (h : Range l e ws) : range64 l e = ws := by
  obtain ⟨a, b, e1, e2, e3⟩ := h
  unfold range64
  rw [e3, e2, e1, Nat.add_sub_cancel_left, List.append_assoc, List.drop_left, List.take_left]

theorem Range.ne_zero {α : Type} {l : List α} {e : Entry64} {ws : List α} (h : Range l e ws) (hw : ws ≠ []) : e ≠ 0 := by
  rintro rfl
  obtain ⟨a, b, e1, e2, e3⟩ := h
  have := List.length_pos_iff.mpr hw
  have h0 : (0 : Entry64).toNat = 0 := rfl
  rw [h0] at e3
  omega

theorem nodup_inj {α β : Type} {f : α → β} {l : List α} (h : (l.map f).Nodup) {x y : α} (hx : x ∈ l) (hy : y ∈ l) (e : f x = f y) : x = y := by
  induction l with
  | nil => cases hx
  | cons a l ih =>
    rw [List.map_cons, List.nodup_cons] at h
    rcases List.mem_cons.mp hx with hx' | hx' <;> rcases List.mem_cons.mp hy with hy' | hy'
    · rw [hx', hy']
    · subst hx'; exact absurd (e ▸ List.mem_map_of_mem hy') h.1
    · subst hy'; exact absurd (e ▸ List.mem_map_of_mem hx') h.1
    · exact ih h.2 hx' hy'

/-- An optional name and its entry. -/
theorem optText_nil {F : St} {n : Bytes} {e : Entry64} (h : OptText F n e) : e = 0 ↔ n = [] := by
  rcases h with ⟨h1, h2⟩ | ⟨h1, h2, _⟩
  · exact ⟨fun _ => h1, fun _ => h2⟩
  · exact ⟨fun h => absurd h h2, fun h => absurd h h1⟩

/-! ### Rules -/

section
variable {env : Env} {lib : Bytes → Re} {u : Bytes}

theorem patternOf.unique {repl : Bytes → Option Bytes} {rs p p' : Bytes} (h : patternOf env repl rs p) (h' : patternOf env repl rs p') : p = p' := by
  obtain ⟨_, n, h1, rfl, _⟩ := h
  obtain ⟨_, n', h1', rfl, _⟩ := h'
  rw [h1] at h1'
  cases h1'
  rfl

/-- A matching rule is a literal one exactly when its row has no regexp index; otherwise the row's regexp is that of the rule. -/
theorem MatchDen.hit {repl : Bytes → Option Bytes} {F : St} {rs lit : Bytes} {ri : Int} {e : Entry64} {lib : Bytes → Re}
    (h : MatchDen env.compiles repl F rs lit ri e) (hm : RuleMatch env repl lib rs lit u) :
    (ri < 0 ∧ ¬ Special rs) ∨ (0 ≤ ri ∧ Special rs ∧ ∃ p, patternOf env repl rs p ∧ (F.re.map lib)[ri.toNat]? = some (lib p)) := by
  cases h with
  | lit hn hr he => exact .inl ⟨by omega, hn⟩
  | re n hsp hn hc hr hre he =>
    exact .inr ⟨hr, hsp, _, ⟨hsp, n, hn, rfl, hc⟩, by rw [List.getElem?_map, hre]; rfl⟩
  | bad n hsp hn hc hr he =>
    rcases hm with ⟨h, _⟩ | ⟨p, ⟨_, n', h1, h2, h3⟩, _⟩
    · exact absurd hsp h
    · rw [hn] at h1
      cases h1
      subst h2
      rw [hc] at h3
      cases h3

/-- The same for rows with a regexp index, without knowing that they match. -/
theorem MatchDen.pat {repl : Bytes → Option Bytes} {F : St} {rs lit : Bytes} {ri : Int} {e : Entry64} {lib : Bytes → Re}
    (h : MatchDen env.compiles repl F rs lit ri e) (h0 : 0 ≤ ri) :
    ∃ p, patternOf env repl rs p ∧ (F.re.map lib)[ri.toNat]? = some (lib p) := by
  cases h with
  | lit hn hr he => omega
  | re n hsp hn hc hr hre he => exact ⟨_, ⟨hsp, n, hn, rfl, hc⟩, by rw [List.getElem?_map, hre]; rfl⟩
  | bad n hsp hn hc hr he => omega

/-- …and of rows without. -/
theorem MatchDen.noPat {repl : Bytes → Option Bytes} {F : St} {rs lit : Bytes} {ri : Int} {e : Entry64}
    (h : MatchDen env.compiles repl F rs lit ri e) (h0 : ri < 0) (p : Bytes) : ¬ patternOf env repl rs p := by
  rintro ⟨hs, n', h1, rfl, h3⟩
  cases h with
  | lit hn hr he => exact hn hs
  | re n hsp hn hc hr hre he => omega
  | bad n hsp hn hc hr he => rw [hn] at h1; cases h1; rw [hc] at h3; cases h3

/-! ### Clients -/

section client
variable {hash : Bytes → UInt64} {r : Rules} {T : Tables}

/-- The parts of a package, by module. -/
theorem Package.parts (hp : Package env lib hash r T) : ∃ (cs : St) (os ds vs hs : St) (hl : List (Bytes × Entry64)) (ev : List (Entry64 × Nat)),
    (T.crRe = cs.re.map (fun p => lib (atWord p)) ∧ T.crBuf = cs.buf.buf ∧ T.crEf = cs.ef.map (·.run) ∧
      All2 (All2 (ClientDen env cs)) r.client T.crIdx ∧ (∀ rows ∈ T.crIdx, ∀ w ∈ rows, Int0 cs w.browser64 ∧ Int0 cs w.engine64) ∧
      (∀ f ∈ cs.ef, EfInt cs f) ∧ (∀ n, n ∈ engineNames cs.engines ↔ NamesEngine r n) ∧
      T.crEv = (fun e => (ev.find? (fun x => x.1 == e)).map (·.2)) ∧
      T.crEvre = (engineNames cs.engines).map (fun n => lib (anyCase (enginePattern n))) ∧ ev.length = (engineNames cs.engines).length ∧
      (∀ (j : Nat) n (x : Entry64 × Nat), (engineNames cs.engines)[j]? = some n → ev[j]? = some x → x.2 = j ∧ cs.buf.idx n = some x.1) ∧
      BOK cs.buf ∧ Small cs) ∧
    (T.orRe = os.re.map (fun p => lib (anyCase p)) ∧ T.orBuf = os.buf.buf ∧ T.orOv = os.ov ∧ All2 (OSDen env os) r.os T.orOs) ∧
    (T.drRe = ds.re.map (fun p => lib (anyCase p)) ∧ T.drBuf = ds.buf.buf ∧ T.drDm = ds.dm ∧
      All2 (fun f ws => All2 (DeviceDen env ds) (sortBy (·.name) f) ws) r.device T.drIdx) ∧
    (T.vrRe = vs.re.map lib ∧ T.vrBuf = vs.buf.buf ∧ All2 (VendorDen vs) (sortBy (·.name) r.vendor) T.vrIdx) ∧
    (T.hrBuf = hs.buf.buf ∧ T.hrIdx = (fun h => ((hl.map (fun x => (hash x.1, x.2))).find? (fun x => x.1 == h)).map (·.2)) ∧ HintDen hs r.hint hl) := by
  obtain ⟨o, fb, ft, fm, ho, hs, rfl⟩ := hp.made
  obtain ⟨co, hc, cden⟩ := client_ok env r.client
  obtain ⟨orows, oF, hos, oden⟩ := os_ok env r.os
  obtain ⟨drows, dF, hd, dden⟩ := device_ok env r.device
  obtain ⟨vrows, vF, hv, vden⟩ := vendor_ok r.vendor
  obtain ⟨hl, hrows, hF, hh, hhe, hden⟩ := hint_ok hash r.hint
  unfold compile at ho
  simp only [hc, hos, hd, hv, hh] at ho
  cases ho
  obtain ⟨c1, c2, c3, c4, c5⟩ := cden hs.client
  obtain ⟨i1, i2, i3, i4, i5⟩ := client_int hc hs.client
  refine ⟨co.st, oF, dF, vF, hF, hl, co.ev, ⟨rfl, rfl, rfl, c1, i1, i2, fun n => ?_, rfl, ?_, ?_, fun j n x hn hx => ⟨(c5 j n x hn hx).1, i3 j n x hn hx⟩, i5, hs.client⟩,
    ⟨rfl, rfl, rfl, (oden hs.os).1⟩, ⟨rfl, rfl, rfl, (dden hs.device).1⟩, ⟨rfl, rfl, vden hs.vendor⟩, ⟨rfl, by rw [← hhe]; rfl, hden hs.hint⟩⟩
  · rw [engineNames_mem]
    constructor
    · rintro ⟨h1, h2⟩
      exact ⟨h2, i4 n h1⟩
    · rintro ⟨h1, f, hf, t, ht, en, h2, h3⟩
      obtain ⟨ws, _, ha⟩ := all2_left c1 hf
      obtain ⟨w, _, den⟩ := all2_left ha ht
      exact ⟨den.names en h2 n h1 h3, h1⟩
  · show (List.map (fun p => lib (wrapCI p)) co.evre) = _
    rw [c3, List.map_map]
    rfl
  · rw [c4, c3, List.length_map]

/-- Well-formedness of the package for user agents the rules are good for. -/
theorem Package.wf (hp : Package env lib hash r T) (hr : RulesOK env lib r u) : WFfor T u := by
  obtain ⟨o, fb, ft, fm, ho, hs, rfl⟩ := hp.made
  refine compiled_wf fb ft fm hp.lib_wf (fun n hn hne => hp.engines n ⟨hne, ?_⟩) ho hs hr
  obtain ⟨co, hc, cden⟩ := client_ok env r.client
  obtain ⟨orows, oF, hos, oden⟩ := os_ok env r.os
  obtain ⟨drows, dF, hd, dden⟩ := device_ok env r.device
  obtain ⟨vrows, vF, hv, vden⟩ := vendor_ok r.vendor
  obtain ⟨hl, hrows, hF, hh, hhe, hden⟩ := hint_ok hash r.hint
  unfold compile at ho
  simp only [hc, hos, hd, hv, hh] at ho
  cases ho
  exact (client_int hc hs.client).2.2.2.1 n hn

variable {cs : St} (cden : All2 (All2 (ClientDen env cs)) r.client T.crIdx) (hre : T.crRe = cs.re.map (fun p => lib (atWord p)))
  (hbuf : T.crBuf = cs.buf.buf)
include hre hbuf

theorem client_hits {t : ClientRule} {w : ClientTuple} (den : ClientDen env cs t w) : ClientMatch T u w ↔ t.Hits env lib u := by
  unfold ClientMatch ClientRule.Hits
  rw [hre, hbuf]
  exact rowMatch_of den.m

include cden

theorem client_noRule {i : Nat} (h : NoClient T u i) : NoClientRule env lib u r i := by
  obtain ⟨rows, h1, h2⟩ := h
  have hlt : i < r.client.length := by rw [cden.1]; exact (List.getElem?_eq_some_iff.mp h1).1
  exact ⟨_, List.getElem?_eq_getElem hlt, (cden.2 i _ _ (List.getElem?_eq_getElem hlt) h1).none (fun a b _ d => client_hits hre hbuf d) h2⟩

theorem client_first {i : Nat} {rows : List ClientTuple} {w : ClientTuple} (h1 : T.crIdx[i]? = some rows) (h2 : First (ClientMatch T u) rows w) :
    ∃ f t, r.client[i]? = some f ∧ First (ClientRule.Hits env lib u) f t ∧ ClientDen env cs t w := by
  have hlt : i < r.client.length := by rw [cden.1]; exact (List.getElem?_eq_some_iff.mp h1).1
  obtain ⟨t, ht, d⟩ := (cden.2 i _ _ (List.getElem?_eq_getElem hlt) h1).first (fun a b _ d => client_hits hre hbuf d) h2
  exact ⟨_, t, List.getElem?_eq_getElem hlt, ht, d⟩

theorem client_chosen {m ty : ClientType} {w : ClientTuple} (h : ClientChosen T m u ty w) :
    ∃ t, ClientRuleChosen env lib u r m ty t ∧ ClientDen env cs t w ∧ t.Hits env lib u := by
  obtain ⟨a, z, i, rows, h1, h2, h3, h4, h5⟩ := h
  obtain ⟨f, t, h6, h7, d⟩ := client_first cden hre hbuf h4 h5
  exact ⟨t, ⟨a, z, i, f, h1, h2, fun x hx hm => client_noRule cden hre hbuf (h3 x hx hm), h6, h7⟩, d, h7.mem.2⟩

theorem client_none {m : ClientType} (h : ClientNone T m u) : ClientRuleNone env lib u r m :=
  fun x hx hm => client_noRule cden hre hbuf (h x hx hm)

omit cden

theorem client_version {t : ClientRule} {w : ClientTuple} (den : ClientDen env cs t w) (hh : t.Hits env lib u) {raw : Bytes}
    (h : ClientVersion T u w raw) : t.Version env lib u raw := by
  have hm := den.m.hit hh
  cases h with
  | const h0 h1 h =>
    rcases hm with ⟨h', _⟩ | ⟨_, hs, _⟩
    · omega
    · cases den.ver with
      | none _ _ he => exact absurd he h1
      | group _ _ _ he => exact absurd he h1
      | const k1 k2 _ _ ht =>
        rw [hbuf] at h
        rw [text_unique h ht]
        exact .const hs k1 k2
  | @group re _ h0 h1 h2 hr h =>
    rcases hm with ⟨h', _⟩ | ⟨_, hs, p, hp, hl⟩
    · omega
    · rw [hre, hl] at hr
      cases hr
      cases den.ver with
      | none _ hv _ => exact absurd hv h2
      | group x hx hv _ => rw [hv] at h h2; exact .group hx h2 hp h
      | const _ _ hv _ _ => exact absurd hv h2
  | @absent re h0 h1 h2 hr h =>
    rcases hm with ⟨h', _⟩ | ⟨_, hs, p, hp, hl⟩
    · omega
    · rw [hre, hl] at hr
      cases hr
      cases den.ver with
      | none _ hv _ => exact absurd hv h2
      | group x hx hv _ => rw [hv] at h h2; exact .absent hx h2 hp h
      | const _ _ hv _ _ => exact absurd hv h2
  | noGroup h0 h1 h2 =>
    rcases hm with ⟨h', _⟩ | ⟨_, hs, p, hp, hl⟩
    · omega
    · cases den.ver with
      | none hv _ _ => exact .none hs (.inl hv)
      | group x hx hv _ => exact .none hs (.inr ⟨x, hx, by rw [← hv, h2]⟩)
      | const _ _ _ he _ => exact absurd h1 he
  | literal h0 =>
    rcases hm with ⟨_, hs⟩ | ⟨h', _⟩
    · exact .literal hs
    · omega

theorem client_ruleEngine (hef : T.crEf = cs.ef.map (·.run)) (hint : ∀ f ∈ cs.ef, EfInt cs f) {t : ClientRule} {w : ClientTuple}
    (den : ClientDen env cs t w) (hi : Int0 cs w.engine64) (hh : t.Hits env lib u)
    (hth : ∀ en, t.engine = some en → (en.versions.map (·.1)).Nodup ∧ ∀ v ∈ en.versions, v.2 ≠ []) {e : Entry64}
    (h : RuleEngine T u w e) : ∃ n, t.Engine env lib u n ∧ OptText cs n e ∧ Int0 cs e := by
  cases h with
  | const h =>
    cases he : t.engine with
    | none =>
      obtain ⟨h1, _⟩ := den.noEngine he
      exact ⟨[], .none he, .inl ⟨rfl, h1⟩, hi⟩
    | some en =>
      obtain ⟨k1, k2, k3⟩ := den.engine en he
      have hv : en.versions = [] := by
        rcases Classical.em (en.versions = []) with h' | h'
        · exact h'
        · have := (k3 h').1; omega
      exact ⟨en.default, .const he hv, k1, hi⟩
  | @fn raw m g h hv hm hf =>
    cases he : t.engine with
    | none => exact absurd (den.noEngine he).2 h
    | some en =>
      obtain ⟨k1, k2, k3⟩ := den.engine en he
      have hne : en.versions ≠ [] := fun h' => h (k2 h')
      obtain ⟨h0, f, hf', fden⟩ := k3 hne
      rw [hef, List.getElem?_map, hf'] at hf
      cases hf
      have hr := client_version hre hbuf den hh hv
      obtain ⟨vs, hp, hsort, _⟩ := fden.cases
      obtain ⟨hnd, hnn⟩ := hth en he
      have hmin : ∃ v ∈ en.versions, ∀ w ∈ en.versions, strGe w.1 v.1 = true := by
        cases vs with
        | nil => exact absurd hp.symm.eq_nil hne
        | cons v vs =>
          refine ⟨v, hp.mem_iff.mp (List.mem_cons_self ..), fun w hw => ?_⟩
          rcases List.mem_cons.mp (hp.mem_iff.mpr hw) with rfl | hw
          · have := strGe_total w.1 w.1
            simpa using this
          · exact (List.pairwise_cons.mp hsort).1 w hw
      obtain ⟨v, hv', hmin⟩ := hmin
      have huniq : ∀ w ∈ en.versions, w.1 = v.1 → w = v := fun w hw e => nodup_inj hnd hw hv' e
      have key := C59_first_threshold fden hv' hmin huniq m
      have hI := hint f (List.mem_of_getElem? hf')
      have hrun : Int0 cs (f.run m) := by
        unfold EngineFn.run
        split
        · rename_i x hx
          exact .inr (hI.2 x (List.mem_of_find?_eq_some hx))
        · exact hI.1
      cases hg : strGe m v.1 with
      | true =>
        have := key.1 hg
        exact ⟨v.2, .above he hr hm hv' hmin hg, .inr ⟨hnn v hv', text_ne_zero this (hnn v hv'), this⟩, hrun⟩
      | false =>
        refine ⟨en.default, .below he hr hm hv' hmin hg, ?_, hrun⟩
        show OptText cs en.default (f.run m)
        rw [key.2 hg]
        exact k1

include cden

theorem client_engineOf (hef : T.crEf = cs.ef.map (·.run)) (hint : ∀ f ∈ cs.ef, EfInt cs f)
    (hrow : ∀ rows ∈ T.crIdx, ∀ w ∈ rows, Int0 cs w.browser64 ∧ Int0 cs w.engine64) {t : ClientRule} {w : ClientTuple}
    (den : ClientDen env cs t w) (hi : Int0 cs w.engine64) (hh : t.Hits env lib u)
    (hth : ∀ en, t.engine = some en → (en.versions.map (·.1)).Nodup ∧ ∀ v ∈ en.versions, v.2 ≠ []) {e : Entry64}
    (h : EngineOf T u w e) : ∃ n, BrowserEngine env lib u r t n ∧ OptText cs n e ∧ Int0 cs e := by
  cases h with
  | own h h0 =>
    obtain ⟨n, k1, k2, k3⟩ := client_ruleEngine hre hbuf hef hint den hi hh hth h
    exact ⟨n, .own k1 fun hn => h0 ((optText_nil k2).mpr hn), k2, k3⟩
  | @first rows x h hr hf =>
    obtain ⟨n, k1, k2, k3⟩ := client_ruleEngine hre hbuf hef hint den hi hh hth h
    rw [(optText_nil k2).mp rfl] at k1
    obtain ⟨f, t', h6, h7, d⟩ := client_first cden hre hbuf hr hf
    exact ⟨_, .first k1 h6 h7, d.name, (hrow rows (List.mem_of_getElem? hr) x hf.mem.1).1⟩
  | @none rows h hr hf =>
    obtain ⟨n, k1, k2, k3⟩ := client_ruleEngine hre hbuf hef hint den hi hh hth h
    rw [(optText_nil k2).mp rfl] at k1
    exact ⟨[], .none k1 (client_noRule cden hre hbuf ⟨rows, hr, hf⟩), .inl ⟨rfl, rfl⟩, .inl rfl⟩

omit cden hre hbuf

theorem client_engineVersion {ev : List (Entry64 × Nat)} (hb : BOK cs.buf) (hS : Small cs)
    (hnames : ∀ n, n ∈ engineNames cs.engines ↔ NamesEngine r n)
    (hev : T.crEv = (fun e => (ev.find? (fun x => x.1 == e)).map (·.2)))
    (hevre : T.crEvre = (engineNames cs.engines).map (fun n => lib (anyCase (enginePattern n)))) (hlen : ev.length = (engineNames cs.engines).length)
    (hden : ∀ (j : Nat) n (x : Entry64 × Nat), (engineNames cs.engines)[j]? = some n → ev[j]? = some x → x.2 = j ∧ cs.buf.idx n = some x.1)
    {n : Bytes} {e : Entry64} (ht : OptText cs n e) (hi : Int0 cs e) {s : Bytes} (h : EngineVersionText T u e s) : EngineVersionSays lib u r n s := by
  -- the pattern found for `e` is that of `n`
  have found : ∀ i, T.crEv e = some i → NamesEngine r n ∧ ∀ re, T.crEvre[i]? = some re → re = lib (anyCase (enginePattern n)) := by
    intro i hei
    rw [hev] at hei
    obtain ⟨x, hx, rfl⟩ := Option.map_eq_some_iff.mp hei
    have hxe : x.1 = e := by simpa using List.find?_some hx
    obtain ⟨j, hj⟩ := List.getElem?_of_mem (List.mem_of_find?_eq_some hx)
    have hlt : j < (engineNames cs.engines).length := by rw [← hlen]; exact (List.getElem?_eq_some_iff.mp hj).1
    have hn := List.getElem?_eq_getElem hlt
    obtain ⟨h2, hidx⟩ := hden j _ x hn hj
    have htxt := hb.text _ _ hidx hS.buf
    have hmem := (hnames _).mp (List.getElem_mem hlt)
    rw [hxe] at htxt
    have hnn : n = (engineNames cs.engines)[j] := by
      rcases ht with ⟨_, h0⟩ | ⟨_, _, ht⟩
      · rw [h0] at htxt
        exact absurd rfl (text_ne_zero htxt hmem.1)
      · exact text_unique ht htxt
    rw [hnn]
    refine ⟨hmem, fun re hre => ?_⟩
    rw [h2, hevre, List.getElem?_map, hn] at hre
    cases hre
    rfl
  obtain ⟨h0, i, re, h1, h2, h3⟩ | ⟨h1, rfl⟩ := h
  · obtain ⟨k1, k2⟩ := found i h1
    rw [k2 re h2] at h3
    exact .group k1 h3
  · rcases h1 with h1 | h1 | ⟨i, re, h1, h2, h3⟩
    · refine .unknown fun hn => ?_
      exact hn.1 ((optText_nil ht).mp h1)
    · refine .unknown fun hn => ?_
      obtain ⟨j, hj⟩ := List.getElem?_of_mem ((hnames n).mpr hn)
      have hlt : j < ev.length := by rw [hlen]; exact (List.getElem?_eq_some_iff.mp hj).1
      obtain ⟨_, hidx⟩ := hden j n _ hj (List.getElem?_eq_getElem hlt)
      have hidx' : cs.buf.idx n = some e := by
        rcases ht with ⟨h, _⟩ | ⟨_, hz, ht⟩
        · exact absurd h hn.1
        · exact (hi.resolve_left hz).unique hb hS.buf ht
      rw [hidx'] at hidx
      rw [hev] at h1
      have h1 : (ev.find? (fun x => x.1 == e)) = none := by simpa using h1
      rw [List.find?_eq_none] at h1
      refine h1 _ (List.getElem_mem hlt) ?_
      rw [← Option.some.inj hidx]
      simp
    · obtain ⟨k1, k2⟩ := found i h1
      rw [k2 re h2] at h3
      exact .noMatch k1 h3

end client
end
end Verif.Compiler
