import Verif.Model.BuildInputs

/-! What it means that the cuts on SE images are looser. -/

namespace Pizza

/-- The configuration `c'` is `c` with cuts that are no stricter: the same or a higher largest masked fraction, the same or a
smaller buffer along the edges of the CCDs, no other flags that exclude an image, and masked edges are copied if `c` has them
copied.  All else is as in `c`. -/
structure LooserCuts {A : Type} (c c' : BuildCfg A) : Prop where
  rest : c' = { c with maxMaskedFraction := c'.maxMaskedFraction, edgeBuffer := c'.edgeBuffer,
                       badImageFlags := c'.badImageFlags, copyEdges := c'.copyEdges }
  fraction : c.maxMaskedFraction ≤ c'.maxMaskedFraction
  buffer : c'.edgeBuffer ≤ c.edgeBuffer
  flags : ∀ k < 32, c'.badImageFlags.getLsbD k = true → c.badImageFlags.getLsbD k = true
  edges : c.copyEdges = true → c'.copyEdges = true

end Pizza
