import Verif.Model.WcsSearch
import Verif.Lemmas.Wcs

/-!
Property C127: the search for the pixel of a sky position has its zeros at the right places.
-/

namespace Pizza

theorem lonlatDiff_fin {image2sky : ℚ → ℚ → Flt × Flt} {x y l b : ℚ} (lon lat : ℚ)
    (h : image2sky x y = (.fin l, .fin b)) :
    lonlatDiff image2sky (lon, lat) x y = (.fin (wrapFin (l - lon)), .fin (b - lat)) := by
  simp only [lonlatDiff, h, Flt.add, wrapRaDiff, sub_eq_add_neg]

/-- Whatever differs from the wrapped difference by whole turns is at least as far from zero. -/
theorem wrapFin_least (q : ℚ) (k : ℤ) : |wrapFin q| ≤ |q + 360 * k| := by
  obtain ⟨h1, h2, ⟨j, hj⟩, -⟩ := wrapFin_spec q
  have h : |wrapFin q| ≤ 180 := abs_le.2 ⟨h1, h2⟩
  have e : q + 360 * k = wrapFin q + 360 * ((k - j : ℤ) : ℚ) := by rw [hj]; push_cast; ring
  rw [e]
  rcases eq_or_ne (k - j) 0 with h0 | h0
  · rw [h0]; simp
  · have h3 : (1 : ℚ) ≤ |((k - j : ℤ) : ℚ)| := by
      have := Int.one_le_abs h0
      exact_mod_cast this
    have h4 : |360 * ((k - j : ℤ) : ℚ)| ≤ |wrapFin q + 360 * ((k - j : ℤ) : ℚ)| + |wrapFin q| := by
      have := abs_sub (wrapFin q + 360 * ((k - j : ℤ) : ℚ)) (wrapFin q)
      simpa using this
    rw [abs_mul] at h4
    have : |(360 : ℚ)| = 360 := by norm_num
    rw [this] at h4
    linarith

/-- C127: what is compared with zero vanishes at exactly the pixels whose sky position is the one looked
for, where right ascensions that differ by whole turns are the same. -/
theorem C127_zero_iff (image2sky : ℚ → ℚ → Flt × Flt) (lon lat x y : ℚ) :
    lonlatDiff image2sky (lon, lat) x y = (.fin 0, .fin 0) ↔
      ∃ k : ℤ, image2sky x y = (.fin (lon + 360 * k), .fin lat) := by
  constructor
  · intro h
    rcases hs : image2sky x y with ⟨l, b⟩
    cases l <;> cases b <;> simp only [lonlatDiff, hs, Flt.add, wrapRaDiff, Prod.mk.injEq, Flt.fin.injEq,
      reduceCtorEq, and_false, false_and] at h
    rename_i l b
    obtain ⟨h1, h2⟩ := h
    obtain ⟨-, -, ⟨k, hk⟩, -⟩ := wrapFin_spec (l + -lon)
    refine ⟨-k, ?_⟩
    rw [h1] at hk
    simp only [Prod.mk.injEq, Flt.fin.injEq]
    push_cast
    constructor <;> linarith
  · rintro ⟨k, h⟩
    rw [lonlatDiff_fin lon lat h, wrapFin_unique (r := 0) (k := k) (by norm_num) (by ring)]
    simp

/-- `C127_zero_iff` on a sky whose right ascension starts again at 360: the pixel (8, 3) is at 2 degrees,
found when 362 is looked for. -/
example : lonlatDiff (fun x y => (.fin (354 + x + if x ≥ 6 then -360 else 0), .fin (y / 4))) (362, 3 / 4) 8 3 =
    (.fin 0, .fin 0) :=
  (C127_zero_iff _ _ _ _ _).2 ⟨-1, by norm_num⟩

/-- C127: at a pixel with a finite sky position the values are the difference of the declinations, and
the difference of the right ascensions with as many whole turns taken off as bring it nearest to zero, so
at most half a turn. -/
theorem C127_nearest (image2sky : ℚ → ℚ → Flt × Flt) (lon lat x y l b : ℚ)
    (h : image2sky x y = (.fin l, .fin b)) :
    ∃ d, lonlatDiff image2sky (lon, lat) x y = (.fin d, .fin (b - lat)) ∧ |d| ≤ 180 ∧
      (∃ k : ℤ, d = l - lon + 360 * k) ∧ ∀ k : ℤ, |d| ≤ |l - lon + 360 * k| := by
  obtain ⟨h1, h2, h3, -⟩ := wrapFin_spec (l - lon)
  exact ⟨_, lonlatDiff_fin lon lat h, abs_le.2 ⟨h1, h2⟩, h3, wrapFin_least _⟩

/-- `C127_nearest`: 359 and 1 are two degrees apart. -/
example : ∃ d, lonlatDiff (fun x y => (.fin (x + 300), .fin y)) (1, -20) 59 (-21) = (.fin d, .fin (-1)) ∧
    |d| ≤ 2 := by
  obtain ⟨d, h, -, -, h2⟩ := C127_nearest (fun x y => (.fin (x + 300), .fin y)) 1 (-20) 59 (-21) 359 (-21)
    (by norm_num)
  refine ⟨d, by rw [h]; norm_num, ?_⟩
  have := h2 (-1)
  norm_num at this
  exact this

/-- C127: whole turns in the position looked for or in the values of the WCS do not change what is
compared with zero, unless the two are exactly half a turn apart. -/
theorem C127_turns (image2sky image2sky' : ℚ → ℚ → Flt × Flt) (lon lat x y l b : ℚ) (j k : ℤ)
    (h : image2sky x y = (.fin l, .fin b)) (h' : image2sky' x y = (.fin (l + 360 * j), .fin b))
    (hne : ∀ i : ℤ, l - lon ≠ 180 + 360 * i) :
    lonlatDiff image2sky' (lon + 360 * k, lat) x y = lonlatDiff image2sky (lon, lat) x y := by
  rw [lonlatDiff_fin _ lat h, lonlatDiff_fin _ lat h']
  obtain ⟨h1, h2, ⟨i, hi⟩, -⟩ := wrapFin_spec (l - lon)
  have hlt : |wrapFin (l - lon)| < 180 := by
    refine lt_of_le_of_ne (abs_le.2 ⟨h1, h2⟩) fun he => ?_
    rcases (abs_eq (by norm_num : (0 : ℚ) ≤ 180)).1 he with he | he
    · exact hne (-i) (by push_cast; linarith)
    · exact hne (-i - 1) (by push_cast; linarith)
  rw [wrapFin_unique (r := wrapFin (l - lon)) (k := j - k - i) hlt (by rw [hi]; push_cast; ring)]

/-- `C127_turns`: 350 and -10 are looked for in the same way. -/
example : lonlatDiff (fun x y => (.fin (x + 360 * (1 : ℤ)), .fin y)) (350 + 360 * (-1 : ℤ), 2) 5 3 =
    lonlatDiff (fun x y => (.fin x, .fin y)) (350, 2) 5 3 :=
  C127_turns (fun x y => (.fin x, .fin y)) _ 350 2 5 3 5 3 1 (-1) rfl rfl (by
    intro i h
    have h2 : (-345 : ℤ) = 180 + 360 * i := by exact_mod_cast (by linarith : (-345 : ℚ) = 180 + 360 * i)
    omega)

/-- C127: where the sky is affine in the pixel position up to whole turns, what is compared with zero is
the affine function that vanishes at the pixel looked for, at all pixels less than half a turn away; one
Newton step with the derivatives of the sky leads from any of them to that pixel, wherever the right
ascension starts again. -/
theorem C127_affine (image2sky : ℚ → ℚ → Flt × Flt) (r0 rx ry d0 dx dy : ℚ) (n : ℚ → ℚ → ℤ)
    (hsky : ∀ x y, image2sky x y =
      (.fin (r0 + rx * x + ry * y + 360 * n x y), .fin (d0 + dx * x + dy * y)))
    (lon lat xs ys : ℚ) (m : ℤ) (hs : image2sky xs ys = (.fin (lon + 360 * m), .fin lat))
    (x y : ℚ) (hlt : |rx * (x - xs) + ry * (y - ys)| < 180) :
    ∃ d e, lonlatDiff image2sky (lon, lat) x y = (.fin d, .fin e) ∧
      d = rx * (x - xs) + ry * (y - ys) ∧ e = dx * (x - xs) + dy * (y - ys) ∧
      (rx * dy - ry * dx ≠ 0 →
        x - (dy * d - ry * e) / (rx * dy - ry * dx) = xs ∧
        y - (rx * e - dx * d) / (rx * dy - ry * dx) = ys) := by
  rw [hsky] at hs
  simp only [Prod.mk.injEq, Flt.fin.injEq] at hs
  obtain ⟨h1, h2⟩ := hs
  refine ⟨_, _, ?_, rfl, rfl, fun hd => ?_⟩
  · rw [lonlatDiff_fin lon lat (hsky x y),
      wrapFin_unique (r := rx * (x - xs) + ry * (y - ys)) (k := n x y - n xs ys + m) hlt
        (by push_cast; linarith)]
    simp only [Prod.mk.injEq, Flt.fin.injEq, true_and]
    linarith
  · constructor <;> rw [sub_eq_iff_eq_add, ← sub_eq_iff_eq_add', eq_div_iff hd] <;> ring

/-- `C127_affine` on a sky whose right ascension starts again between the start and the pixel looked for. -/
example := C127_affine
  (fun x y => (.fin (359 + (1/2) * x + (-1/4) * y + 360 * ((if x > 2 then -1 else 0 : ℤ) : ℚ)),
      .fin (0 + (1/5) * x + (1/3) * y)))
  359 (1/2) (-1/4) 0 (1/5) (1/3) (fun x _ => if x > 2 then -1 else 0) (fun _ _ => rfl)
  (1435/4) (31/15) 2 5 0 (by norm_num) 10 9 (by norm_num [abs_lt])

/-- C127: a sky position that is not finite is handed on as it is, so it is never taken for the one
looked for. -/
theorem C127_not_finite (image2sky : ℚ → ℚ → Flt × Flt) (lon lat x y : ℚ) (l b : Flt)
    (h : image2sky x y = (l, b)) :
    ((∀ q, l ≠ .fin q) → (lonlatDiff image2sky (lon, lat) x y).1 = l) ∧
    ((∀ q, b ≠ .fin q) → (lonlatDiff image2sky (lon, lat) x y).2 = b) := by
  simp only [lonlatDiff, h]
  refine ⟨fun hl => ?_, fun hb => ?_⟩
  · cases l with
    | fin q => exact absurd rfl (hl q)
    | _ => rfl
  · cases b with
    | fin q => exact absurd rfl (hb q)
    | _ => rfl

/-- `C127_not_finite` at a pixel off the projection. -/
example : (lonlatDiff (fun _ _ => (.nan, .posInf)) (10, 20) 1 2).1 = .nan :=
  (C127_not_finite (fun _ _ => (.nan, .posInf)) 10 20 1 2 _ _ rfl).1 (by intro q; simp)

end Pizza
