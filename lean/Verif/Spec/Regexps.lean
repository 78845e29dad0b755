import Verif.Proofs.Regexp
/-
What the results about the shipped tables need to know about the regexp library.
-/
namespace Verif

/-- A regexp library: `regexp.MustCompile` with `String`, `NumSubexp` and `FindSubmatchIndex`. Texts that do not compile may be mapped to any
`Re` (the shipped ones all compile, else the package would panic when it is loaded). The number of groups is that of the opening
parentheses that are not escaped, in a class or followed by `?` (but for `?P<`), and a group that no `?`, `*`, `{0,`, `|` can skip takes part
in every match. -/
structure RegexpLib where
  compile : Bytes → Re
  src : ∀ p, (compile p).src = p
  wf : ∀ p, (compile p).WF
  ncap : ∀ p, (compile p).ncap = Regexp.groups p
  mandatory : ∀ p, Regexp.mandatory p = true → MandatoryGroup (compile p)

/-- The library modelled in `Verif/Model/Regexp.lean` is one. -/
def Regexp.lib : RegexpLib where
  compile := Regexp.compile
  src _ := rfl
  wf := Regexp.compile_wf
  ncap _ := rfl
  mandatory _ := Regexp.compile_mandatory

end Verif
