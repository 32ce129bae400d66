import Verif.Spec.Process

/-! Vocabulary for C154: the same SE images with all fluxes in other units. -/

namespace Pizza

section
variable {A σ S P : Type}

/-- The second number is `f` times the first; what is not a number stays what it is. -/
inductive Flt.Times (f : ℚ) : Flt → Flt → Prop
  | fin (q) : Flt.Times f (.fin q) (.fin (f * q))
  | posInf : Flt.Times f .posInf .posInf
  | negInf : Flt.Times f .negInf .negInf
  | nan : Flt.Times f .nan .nan

/-- The fluxes of the second slice are `k` times those of the first, and so are the pixels of the noise images; the weights are
divided by the square of `k`.  Masks, masked fractions and the PSF are the same. -/
structure FluxTimes (k : ℚ) (p p' : SlicePix Flt) : Prop where
  image : List.Forall₂ (Flt.Times k) p.image p'.image
  noises : List.Forall₂ (List.Forall₂ (Flt.Times k)) p.noises p'.noises
  weight : List.Forall₂ (Flt.Times (1 / k ^ 2)) p.weight p'.weight
  rest : p' = { p with image := p'.image, noises := p'.noises, weight := p'.weight }

/-- Both slices fail with the same error, or neither fails, the epochs used and not used and their coadding weights are the same
and the fluxes are `k` times as large. -/
inductive SliceTimes (k : ℚ) : Except Err (SliceRes Flt EpochRow) → Except Err (SliceRes Flt EpochRow) → Prop
  | error (e) : SliceTimes k (.error e) (.error e)
  | empty (i epochs weights) : SliceTimes k (.ok ⟨i, epochs, weights, none⟩) (.ok ⟨i, epochs, weights, none⟩)
  | pixels (i epochs weights p p') (h : FluxTimes k p p') :
    SliceTimes k (.ok ⟨i, epochs, weights, some p⟩) (.ok ⟨i, epochs, weights, some p'⟩)

/-- The second array is `k` times the first. -/
def ImgTimes (k : ℚ) (a b : Img ℚ) : Prop :=
  b.nrow = a.nrow ∧ b.ncol = a.ncol ∧ ∀ r c, b.px r c = k * a.px r c

/-- The same SE image with a zero-point factor that is `k` times as large, and with noise fields in these units. -/
structure OtherUnits (k : ℚ) (s s' : Src) : Prop where
  rest : s' = { s with scale := s'.scale, reads := { s.reads with noises := s'.reads.noises } }
  scale : s.init = .ok () → s'.scale = k * s.scale
  noises : s.init = .ok () → (∃ e, s.reads.noises = .error e ∧ s'.reads.noises = .error e) ∨
    ∃ ns ns', s.reads.noises = .ok ns ∧ s'.reads.noises = .ok ns' ∧ List.Forall₂ (ImgTimes k) ns ns'

/-- The external functions follow a change of units: interpolated values, standard deviations, and the weights that are left by
the rejection of outliers. -/
structure Ext.Follows (k : ℚ) (x : Ext A σ) : Prop where
  interp : ∀ pts vals, x.interp pts (vals.map (k * ·)) = (x.interp pts vals).map fun f p => k * f p
  invSqrt : ∀ v, 0 < v → x.invSqrt (v / k ^ 2) = k * x.invSqrt v
  outliers : ∀ ims wts, x.outliers (ims.map (Img.map (k * ·))) (wts.map (Img.map (· / k ^ 2))) =
    (x.outliers ims wts).map fun f i => (f i).map (· / k ^ 2)

/-- Noise images follow a change of units: a weight that is divided by the square of `k` gives noise that is `k` times as large. -/
def ProcWorld.NoiseFollows (k : ℚ) (w : ProcWorld A σ S P) : Prop :=
  ∀ seed a, (∀ r c, 0 < a.px r c) → w.memNoise seed (a.map (· / k ^ 2)) = (w.memNoise seed a).map (k * ·)

/-- The same tile and the same files with zero points, or a reference zero point, by which all fluxes are `k` times as large. -/
structure OtherZeroPoint (k : ℚ) (w w' : ProcWorld A σ S P) (t t' : Tile A S P) : Prop where
  world : w' = { w with zpScale := w'.zpScale }
  tile : t' = { t with entries := t'.entries }
  entries : List.Forall₂ (fun e e' => e' = { e with magzp := e'.magzp } ∧ 0 < w.zpScale e.magzp ∧
    w'.zpScale e'.magzp = k * w.zpScale e.magzp) t.entries t'.entries

end
end Pizza
