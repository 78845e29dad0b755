import Verif.Proofs.SoleSys
import Verif.Proofs.SoleBuiltin
import Verif.Props.Model
import Verif.Props.Builtin
/-
C20 in executions: a context which is the only one asked about its user agent.
-/
namespace Verif

section
variable {T : Tables} {H : Bytes → UInt64}

theorem answersNull_snoc (g : Getter) : ∀ (gs : List Getter) (c : Ctx),
    answersNull T (gs ++ [g]) c = answersNull T gs c ++ [(g.prog T (afterNull T gs c)).runNull.2]
  | [], _ => rfl
  | x :: gs, c => by
    rw [List.cons_append, answersNull, answersNull, answersNull_snoc g gs, List.cons_append]
    rfl

/-- C20, what holds in a whole program sharing an honest cache: let `pre1` be an execution in which no getter was called for the user
agent of context `t`. If then, through `l`, the context receives only getter calls and no other context is asked about that user agent,
every getter of the context, GetModel included, answers what it answers on a new context without a cache. Whatever happens before,
whatever the other contexts do meanwhile with other user agents, and whatever the cache keeps or drops. -/
theorem C20_sole_partial {s : Sys} (hr : Sys.Reach T H s) {t : Nat} {pre1 l post : List Event} {g : Getter} {r : Option (Option Ans)}
    (hlog : s.log = (pre1 ++ l) ++ .ret t (.get g) r :: post) (hS : Session t (reqOf pre1 t).ua pre1 l)
    (hok : ∀ g ∈ getsOf t l, uncached T H g (reqOf pre1 t) ≠ none)
    (hsize : (getsOf t l).length * growth T (reqOf pre1 t).ua + modelBound T (reqOf pre1 t).ua < 2 ^ 32) :
    r = (uncached T H g (reqOf (pre1 ++ l) t)).map some := by
  obtain ⟨hq, gs', hg, hrr⟩ := sole_answer hr hlog hS
  have h1 := C21_order (T := T) (H := H) _ _ hok hsize
  rw [hg, answersNull_snoc, List.map_append] at h1
  have h2 := List.append_inj_right' h1 rfl
  simp only [List.map_cons, List.map_nil, List.cons.injEq, and_true] at h2
  rw [hrr, hq, h2]

end

/-- Two contexts, two phones; the first context asks for the model twice, the second in between for its own. -/
def Demo.apartOps : List (Nat × Op) := [(1, .setUserAgent Demo.phone2), (1, .get .browser), (0, .setUserAgent Demo.phone), (0, .get .browser),
  (1, .get .model), (0, .get .model), (0, .get .osVersionString), (0, .get .model)]

def Demo.apart : Sys := Sys.init.execs Demo.tables Demo.hash Demo.apartOps

/-- Context 0 is alone with its user agent in that run. -/
theorem Demo.apart_session : Session 0 (reqOf (Demo.apart.log.take 6) 0).ua (Demo.apart.log.take 6) ((Demo.apart.log.drop 6).take 9) :=
  Session.of_lists (by decide +kernel) (by decide +kernel) (by decide +kernel)

/-- C20_sole_partial gives its second GetModel. -/
example (r : Option (Option Ans)) (h : Demo.apart.log = (Demo.apart.log.take 6 ++ (Demo.apart.log.drop 6).take 9) ++ .ret 0 (.get .model) r :: []) :
    r = some (some (.text (ascii "Pixel 4"))) := by
  rw [C20_sole_partial (reach_execs _ .init) h Demo.apart_session (by decide +kernel) (by decide +kernel)]
  decide +kernel

/-- And the run ends like that. -/
example : Demo.apart.log = (Demo.apart.log.take 6 ++ (Demo.apart.log.drop 6).take 9) ++ .ret 0 (.get .model) (some (some (.text (ascii "Pixel 4")))) :: [] := by
  decide +kernel

/-! ### With the built-in cache -/

/-- With the built-in cache, for a user agent whose hash no other user agent asked about so far has: a getter answers, or panics, as if there were no cache
and the context had been asked some of the questions it was asked before. -/
theorem sole_builtin {T : Tables} {H : Bytes → UInt64} {s : BSys} (hr : BSys.Reach T H s) {t : Nat} {pre1 l post : List Event} {g : Getter}
    {r : Option (Option Ans)} (hlog : s.log = (pre1 ++ l) ++ .ret t (.get g) r :: post) (ha : Alone H (pre1 ++ l) (reqOf (pre1 ++ l) t).ua)
    (hS : Session t (reqOf pre1 t).ua pre1 l) :
    reqOf (pre1 ++ l) t = reqOf pre1 t ∧
    ∃ gs', (gs' ++ [g]).Sublist (getsOf t l) ∧ r = ((g.prog T (afterNull T gs' ((reqOf pre1 t).newCtx H))).runNull.2).map some := by
  obtain ⟨s1, hr1, hl1⟩ := breach_prefix hr ((pre1 ++ l) ++ [.ret t (.get g) r]) post (by rw [hlog]; simp)
  obtain ⟨sets, s', hs', I⟩ := builtin_inv (G := Alone H (pre1 ++ l)) hr1 (fun u hu q hq => hu q (by rw [hl1] at hq; exact hq.of_ret))
  have hk := I.log
  rw [hl1] at hk
  obtain ⟨pre', post', e1, e2⟩ := Kept.answer (post := []) ha hk
  obtain ⟨p1, l', rfl, k1, k2⟩ := e2.split l rfl
  have hq := k1.reqOf t
  have hq2 := e2.reqOf t
  obtain ⟨h1, gs', h2, h3⟩ := sole_answer (t := t) (pre1 := p1) (l := l') hs' e1
    (by
      rw [hq]
      exact ⟨fun q hq => hS.fresh q (k1.used hq), fun op ho => hS.gets op (k2.subset ho), fun t' ht q hu => hS.alone t' ht q (e2.usedBy hu)⟩)
  refine ⟨by rw [← hq2, h1, hq], gs', ?_, by rw [h3, hq]⟩
  rw [← h2]
  exact k2.filterMap _

/-- C20, what holds with the built-in cache: the same, for a user agent whose hash no other user agent asked about so far has. -/
theorem C20_sole_builtin_partial {T : Tables} {H : Bytes → UInt64} {s : BSys} (hr : BSys.Reach T H s) {t : Nat} {pre1 l post : List Event} {g : Getter}
    {r : Option (Option Ans)} (hlog : s.log = (pre1 ++ l) ++ .ret t (.get g) r :: post) (ha : Alone H (pre1 ++ l) (reqOf (pre1 ++ l) t).ua)
    (hS : Session t (reqOf pre1 t).ua pre1 l) (hok : ∀ g ∈ getsOf t l, uncached T H g (reqOf pre1 t) ≠ none)
    (hsize : (getsOf t l).length * growth T (reqOf pre1 t).ua + modelBound T (reqOf pre1 t).ua < 2 ^ 32) :
    r = (uncached T H g (reqOf (pre1 ++ l) t)).map some := by
  obtain ⟨hq, gs', hg, hrr⟩ := sole_builtin hr hlog ha hS
  have h1 := C21_order (T := T) (H := H) (reqOf pre1 t) (gs' ++ [g]) (fun x hx => hok x (hg.subset hx)) (by
    have := Nat.mul_le_mul_right (growth T (reqOf pre1 t).ua) hg.length_le
    omega)
  rw [answersNull_snoc, List.map_append] at h1
  have h2 := List.append_inj_right' h1 rfl
  simp only [List.map_cons, List.map_nil, List.cons.injEq, and_true] at h2
  rw [hrr, hq, h2]

/-- The same run with the built-in cache. -/
def Demo.apartB : BSys := BSys.init.execs Demo.tables fnv1 7 Demo.apartOps

theorem Demo.apartB_log : Demo.apartB.log = Demo.apart.log := by decide +kernel

example (r : Option (Option Ans)) (h : Demo.apartB.log = (Demo.apart.log.take 6 ++ (Demo.apart.log.drop 6).take 9) ++ .ret 0 (.get .model) r :: []) :
    r = some (some (.text (ascii "Pixel 4"))) := by
  have ha : ∀ q ∈ usedList [] (Demo.apart.log.take 15), fnv1 q.ua = fnv1 (reqOf (Demo.apart.log.take 15) 0).ua → q.ua = (reqOf (Demo.apart.log.take 15) 0).ua := by
    decide +kernel
  rw [C20_sole_builtin_partial (breach_execs _ .init) h (fun q hq => ha q (used_mem hq)) Demo.apart_session (by decide +kernel) (by decide +kernel)]
  decide +kernel

end Verif
