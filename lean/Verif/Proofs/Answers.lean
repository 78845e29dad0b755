import Verif.Proofs.System
import Verif.Proofs.Exec
import Verif.Proofs.Uncached
/-
What the system invariant says about an answer found in the log.
-/
namespace Verif

section
variable {T : Tables} {H : Bytes → UInt64}

/-- The filters under which user agent `u` has been queried. -/
def usedC (log : List Event) : Bytes → ClientType → Prop := fun u m => ∃ q, Used log q ∧ q.ua = u ∧ q.mc = m
def usedD (log : List Event) : Bytes → DeviceType → Prop := fun u m => ∃ q, Used log q ∧ q.ua = u ∧ q.md = m

theorem outAns_none_C {g : Getter} (h : g.isC = true) {q : Req} (hc : clientOut T q.mc q.ua = none) : outAns T H q g = none := by
  cases g <;> simp_all [outAns, Getter.isC]

theorem outAns_none_O {g : Getter} (h : g.isO = true) {q : Req} (hc : osOut T q.ua = none) : outAns T H q g = none := by
  cases g <;> simp_all [outAns, osAns, Getter.isO]

theorem outAns_none_D {g : Getter} (h : g.isD = true) {q : Req} (hc : devOut T q.md q.ua = none) : outAns T H q g = none := by
  cases g <;> simp_all [outAns, Getter.isD]

theorem outAns_C {g : Getter} (h : g.isD = false) (q : Req) (m : ClientType) (d d' : DeviceType) :
    outAns T H { q with mc := m, md := d } g = outAns T H { q with mc := m, md := d' } g := by
  cases g <;> simp_all [outAns, Getter.isD, Req.hint]

theorem outAns_D {g : Getter} (h : g.isC = false) (q : Req) (m m' : ClientType) (d : DeviceType) :
    outAns T H { q with mc := m, md := d } g = outAns T H { q with mc := m', md := d } g := by
  cases g <;> simp_all [outAns, Getter.isC]

theorem answer_inv {s : Sys} (hr : Sys.Reach T H s) {pre post : List Event} {t : Nat} {g : Getter} {r : Option (Option Ans)}
    (hlog : s.log = pre ++ .ret t (.get g) r :: post) :
    ∃ x c, r = Option.map some x ∧ PostG T (usedC pre) (usedD pre) H (reqOf pre t) g x c := by
  obtain ⟨s', hr', hl'⟩ := reach_prefix hr (pre ++ [.ret t (.get g) r]) post (by rw [hlog]; simp)
  have I := sys_inv (MC := usedC pre) (MD := usedD pre) hr' (fun q hq => by
    rw [hl'] at hq
    exact ⟨⟨q, hq.of_ret, rfl, rfl⟩, ⟨q, hq.of_ret, rfl, rfl⟩⟩)
  obtain ⟨c, x, h1, h2⟩ := I.ans pre [] t g r hl'
  exact ⟨x, c, h1, h2⟩

theorem good_of {log : List Event} {q : Req} {g : Getter} (hm : g ≠ .model) (hu : Used log q)
    (hok : ∀ q', Used log q' → q'.ua = q.ua → uncached T H g (q.withFiltersOf q') ≠ none) :
    GoodFor T (usedC log) (usedD log) q.ua g := by
  refine ⟨fun h m hm' hn => ?_, fun h hn => ?_, fun h m hm' hn => ?_⟩
  · obtain ⟨q', h1, h2, rfl⟩ := hm'
    refine hok q' h1 h2 ?_
    rw [uncached_eq g hm]
    exact outAns_none_C h hn
  · refine hok q hu rfl ?_
    rw [uncached_eq g hm]
    exact outAns_none_O h hn
  · obtain ⟨q', h1, h2, rfl⟩ := hm'
    refine hok q' h1 h2 ?_
    rw [uncached_eq g hm]
    exact outAns_none_D h hn

/-- In every log, the configuration of an answered getter call was in force at that call. -/
theorem used_of_answer {s : Sys} (hr : Sys.Reach T H s) {pre post : List Event} {t : Nat} {g : Getter} {r : Option (Option Ans)}
    (hlog : s.log = pre ++ .ret t (.get g) r :: post) : Used pre (reqOf pre t) := by
  have key : ∀ s : Sys, Sys.Reach T H s → (∀ t g p, s.threads t = .busy (.get g) p → Used s.log (reqOf s.log t)) ∧
      (∀ pre post t g r, s.log = pre ++ .ret t (.get g) r :: post → Used pre (reqOf pre t)) := by
    intro s hr
    induction hr with
    | init => exact ⟨by simp [Sys.init], by simp [Sys.init]⟩
    | @step s s' hr st ih =>
      cases st with
      | @call t c op h =>
        refine ⟨?_, ?_⟩
        · intro t' g p h'
          show Used (s.log ++ [.call t op]) (reqOf (s.log ++ [.call t op]) t')
          by_cases e : t' = t
          · subst e
            simp only [put_same] at h'
            cases h'
            rw [reqOf_call]
            exact Used.call s.log t' g
          · simp only [put_ne _ _ e] at h'
            rw [reqOf_call_ne _ _ e]
            exact (ih.1 t' g p h').append
        · intro pre post t' g r he
          rcases List.eq_nil_or_concat post with rfl | ⟨post', e, rfl⟩
          · have := List.append_inj_right' he rfl
            simp at this
          · rw [List.concat_eq_append, ← List.cons_append, ← List.append_assoc] at he
            exact ih.2 pre post' t' g r (List.append_inj_left' he rfl)
      | @getMiss t op k f h =>
        refine ⟨?_, ih.2⟩
        intro t' g p h'
        by_cases e : t' = t
        · subst e; simp only [put_same] at h'; cases h'; exact ih.1 t' g _ h
        · simp only [put_ne _ _ e] at h'; exact ih.1 t' g p h'
      | @getHit t op k f h =>
        refine ⟨?_, ih.2⟩
        intro t' g p h'
        by_cases e : t' = t
        · subst e; simp only [put_same] at h'; cases h'; exact ih.1 t' g _ h
        · simp only [put_ne _ _ e] at h'; exact ih.1 t' g p h'
      | @set t op k e0 p h =>
        refine ⟨?_, ih.2⟩
        intro t' g p' h'
        by_cases e : t' = t
        · subst e; simp only [put_same] at h'; cases h'; exact ih.1 t' g _ h
        · simp only [put_ne _ _ e] at h'; exact ih.1 t' g p' h'
      | @ret t op c r h =>
        refine ⟨?_, ?_⟩
        · intro t' g p h'
          show Used (s.log ++ [.ret t op r]) (reqOf (s.log ++ [.ret t op r]) t')
          rw [reqOf_ret]
          by_cases e : t' = t
          · subst e; simp only [put_same] at h'; cases h'
          · simp only [put_ne _ _ e] at h'; exact (ih.1 t' g p h').append
        · intro pre post t' g r' he
          rcases List.eq_nil_or_concat post with rfl | ⟨post', e, rfl⟩
          · have h1 := List.append_inj_right' he rfl
            have h2 := List.append_inj_left' he rfl
            simp at h1
            obtain ⟨rfl, rfl, rfl⟩ := h1
            subst h2
            exact ih.1 t g _ h
          · rw [List.concat_eq_append, ← List.cons_append, ← List.append_assoc] at he
            exact ih.2 pre post' t' g r' (List.append_inj_left' he rfl)
  exact (key s hr).2 pre post t g r hlog

end
end Verif
