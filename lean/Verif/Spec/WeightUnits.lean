import Verif.Spec.Linear
import Verif.Spec.ZeroPoint

/-! Vocabulary for C161: the same SE images with weight maps in other units. -/

namespace Pizza

variable {A σ S P : Type}

/-- The same SE image with a weight map that is divided by the square of `k`, and with noise fields that are `k` times as large, as
the smaller weights make them. -/
structure WeightsOver (k : ℚ) (s s' : Src) : Prop where
  rest : s' = { s with reads := { s.reads with weight := s'.reads.weight, noises := s'.reads.noises } }
  weight : (∃ e, s.reads.weight = .error e ∧ s'.reads.weight = .error e) ∨
    ∃ a a', s.reads.weight = .ok a ∧ s'.reads.weight = .ok a' ∧ ImgTimes (1 / k ^ 2) a a'
  noises : (∃ e, s.reads.noises = .error e ∧ s'.reads.noises = .error e) ∨
    ∃ ns ns', s.reads.noises = .ok ns ∧ s'.reads.noises = .ok ns' ∧ List.Forall₂ (ImgTimes k) ns ns'

/-- The same files but for the weight maps of the tile, which are divided by the square of `k`. -/
structure OtherWeights (k : ℚ) (w w' : ProcWorld A σ S P) (t : Tile A S P) : Prop where
  world : w' = { w with files := w'.files, arrays := w'.arrays }
  others : ∀ e ∈ t.entries, w'.original e.image = w.original e.image ∧ w'.original e.bkg = w.original e.bkg ∧
    w'.original e.bmask = w.original e.bmask
  weights : ∀ e ∈ t.entries, 0 < w.zpScale e.magzp ∧
    ((∃ x, w.original e.weight = .error x ∧ w'.original e.weight = .error x) ∨
      ∃ a a', w.original e.weight = .ok a ∧ w'.original e.weight = .ok a' ∧ ImgTimes (1 / k ^ 2) a.asNum a'.asNum)

end Pizza
