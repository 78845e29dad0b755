import Verif.Model.Tool
/-
What the rule compiler is supposed to do, for C76.
-/
namespace Verif.Tool

/-- The file at `p` is there, is not empty and decodes to `a`. -/
def Reads {α : Type} (decode : Bytes → Option α) (fs : FS) (p : Bytes) (a : α) : Prop := ∃ body, fs p = some body ∧ body ≠ [] ∧ decode body = some a

/-- The files at `ps`, in this order, decode to the list. -/
inductive ReadsAll {α : Type} (decode : Bytes → Option α) (fs : FS) : List Bytes → List α → Prop where
  | nil : ReadsAll decode fs [] []
  | cons {p ps a as} (h : Reads decode fs p a) (t : ReadsAll decode fs ps as) : ReadsAll decode fs (p :: ps) (a :: as)

/-- `uaxplc -module m -input i -target t` -/
def cmd (m : String) (i t : Bytes) : List Bytes := [ascii "-module", ascii m, ascii "-input", i, ascii "-target", t]

/-- The files `fs` with `text` at `path`. -/
def put (fs : FS) (path text : Bytes) : FS := fun p => if p = path then some text else fs p

/-- Everywhere but at `ts` the files are the same. -/
def SameBut (ts : List Bytes) (fs fs' : FS) : Prop := ∀ p, p ∉ ts → fs' p = fs p

end Verif.Tool
