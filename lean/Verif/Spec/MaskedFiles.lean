import Verif.Spec.Masked
import Verif.Spec.MakeProc

/-! What it means for the files of a tile to differ only under its masks. -/

namespace Pizza

section
variable {A σ S P W ρ : Type}

/-- The bit mask of an SE image, with the tape bumps if they are masked, asks for the pixel to be replaced. -/
def MaskedOut (w : ProcWorld A σ S P) (t : Tile A S P) (e : Entry P) (r j : Nat) : Prop :=
  ∃ bm, freshMask w t e = .ok bm ∧ (Carries (bm.px r j) t.cfg.noiseFlags ∨
    (t.cfg.copyEdges = false ∧ Carries (bm.px r j) t.cfg.splineFlags))

/-- Other files and arrays in memory, with which the SE images of the tile have the same weights and masks, and images
and backgrounds that differ at most in pixels that the masks ask to replace. -/
structure SameOffMasks (w w' : ProcWorld A σ S P) (t : Tile A S P) : Prop where
  world : w' = { w with files := w'.files, arrays := w'.arrays }
  weight : ∀ e ∈ t.entries, w'.original e.weight = w.original e.weight
  mask : ∀ e ∈ t.entries, w'.original e.bmask = w.original e.bmask
  image : ∀ e ∈ t.entries, SameRead (fun a a' => SameOff (MaskedOut w t e) a.asNum a'.asNum)
    (w.original e.image) (w'.original e.image)
  bkg : ∀ e ∈ t.entries, SameRead (fun a a' => SameOff (MaskedOut w t e) a.asNum a'.asNum)
    (w.original e.bkg) (w'.original e.bkg)

/-- The same call with such files. -/
structure SameCallOffMasks (q q' : MakeP A σ S P W ρ) : Prop where
  files : SameOffMasks q.world q'.world q.tile
  tile : q'.tile = q.tile
  args : q'.args = q.args

end
end Pizza
