import Verif.Model.ImageInfo
import Verif.Props.LoadInfo

/-!
C67–C70: the tables of strings in the output.
-/

namespace Pizza

/-- The string does not end in a NUL character. -/
def Plain (s : PyStr) : Prop := ∀ l, s ≠ l ++ ['\x00']

/-- All strings of a source are plain. -/
structure PlainPaths (p : InfoPaths) : Prop where
  imagePath : Plain p.imagePath
  imageExt : Plain p.imageExt
  weightPath : Plain p.weightPath
  weightExt : Plain p.weightExt
  bmaskPath : Plain p.bmaskPath
  bmaskExt : Plain p.bmaskExt
  bkgPath : Plain p.bkgPath
  bkgExt : Plain p.bkgExt

theorem npStr_eq {n : Nat} {s : PyStr} (hs : Plain s) (hn : s.length ≤ n) : npStr n s = s := by
  unfold npStr
  rw [List.take_of_length_le hn]
  rcases List.eq_nil_or_concat s with rfl | ⟨l, a, rfl⟩
  · rfl
  · have ha : a ≠ '\x00' := fun e => hs l (by rw [e, List.concat_eq_append])
    simp [ha]

theorem npStr_length (n : Nat) (s : PyStr) : (npStr n s).length ≤ n := by
  unfold npStr
  rw [List.length_reverse]
  exact ((List.dropWhile_suffix _).length_le).trans (by simp)

theorem npStr_take {n : Nat} {s : PyStr} (hs : Plain (s.take n)) : npStr n s = s.take n := by
  have := npStr_eq (n := n) hs (by simp)
  unfold npStr at this ⊢
  rwa [List.take_take, min_self] at this

theorem foldl_max_le (l : List Nat) : ∀ a, a ≤ l.foldl max a ∧ ∀ x ∈ l, x ≤ l.foldl max a := by
  induction l with
  | nil => simp
  | cons b l ih =>
    intro a
    rw [List.foldl_cons]
    obtain ⟨h1, h2⟩ := ih (max a b)
    refine ⟨(le_max_left ..).trans h1, fun x hx => ?_⟩
    rcases List.mem_cons.1 hx with rfl | hx
    · exact (le_max_right ..).trans h1
    · exact h2 x hx

theorem pyMax_le {l : List Nat} {m : Nat} (h : pyMax l = .ok m) : ∀ x ∈ l, x ≤ m := by
  cases l with
  | nil => cases h
  | cons a l =>
    cases h
    intro x hx
    rcases List.mem_cons.1 hx with rfl | hx
    · exact (foldl_max_le l x).1
    · exact (foldl_max_le l a).2 x hx

theorem pyMax_ok {l : List Nat} (h : l ≠ []) : ∃ m, pyMax l = .ok m := by
  cases l with
  | nil => exact absurd rfl h
  | cons a l => exact ⟨_, rfl⟩

variable {W : Type}

/-- What is written for the WCS of a source: what is stored with it or what its header has; if that
cannot be read and an affine WCS is configured, None. -/
def WritesWcs (io : WcsIO W) (se : InfoSrc W) (t : PyStr) : Prop :=
  (∃ w, se.imageWcs = some w ∧ io.dumps w = .ok t) ∨
  (se.imageWcs = none ∧ ∃ w, io.load se.paths.imagePath se.paths.imageExt = .ok w ∧
    io.dumps (some w) = .ok t) ∨
  (se.imageWcs = none ∧ se.affine = true ∧ (∀ w, io.load se.paths.imagePath se.paths.imageExt ≠ .ok w) ∧
    io.dumps none = .ok t)

theorem wcsText_ok {io : WcsIO W} {se : InfoSrc W} {t : PyStr} :
    wcsText io se = .ok t ↔ WritesWcs io se t := by
  unfold wcsText noerrLoad WritesWcs
  cases hw : se.imageWcs with
  | some w =>
    rw [ok_bind]
    constructor
    · exact fun h => .inl ⟨w, rfl, h⟩
    · rintro (⟨w', h, h'⟩ | ⟨h, -⟩ | ⟨h, -⟩)
      · cases h
        exact h'
      · cases h
      · cases h
  | none =>
    dsimp only
    cases hl : io.load se.paths.imagePath se.paths.imageExt with
    | ok w =>
      rw [ok_bind]
      constructor
      · exact fun h => .inr (.inl ⟨rfl, w, rfl, h⟩)
      · rintro (⟨w', h, h'⟩ | ⟨-, w', h, h'⟩ | ⟨-, -, h, -⟩)
        · cases h
        · cases h
          exact h'
        · exact absurd rfl (h w)
    | error e =>
      dsimp only
      by_cases ha : se.affine = true
      · rw [if_pos ha, ok_bind]
        constructor
        · exact fun h => .inr (.inr ⟨rfl, ha, fun w h => (nomatch h), h⟩)
        · rintro (⟨w', h, h'⟩ | ⟨-, w', h, h'⟩ | ⟨-, -, -, h⟩)
          · cases h
          · cases h
          · exact h
      · rw [if_neg ha]
        constructor
        · intro h
          cases h
        · rintro (⟨w', h, h'⟩ | ⟨-, w', h, h'⟩ | ⟨-, h, -⟩)
          · cases h
          · cases h
          · exact absurd h ha

theorem wcsTexts_ok {io : WcsIO W} {l : List (InfoSrc W)} : ∀ {ts : List PyStr},
    wcsTexts io l = .ok ts ↔ List.Forall₂ (fun se t => WritesWcs io se t) l ts := by
  induction l with
  | nil =>
    intro ts
    rw [List.forall₂_nil_left_iff]
    exact ⟨fun h => by cases h; rfl, fun h => by rw [h]; rfl⟩
  | cons a l ih =>
    intro ts
    unfold wcsTexts
    simp only [bind_ok_iff, wcsText_ok, ih]
    constructor
    · rintro ⟨t, h1, ts', h2, e⟩
      cases e
      exact .cons h1 h2
    · intro h
      cases h with
      | cons h1 h2 => exact ⟨_, h1, _, h2, rfl⟩

theorem mapM_pyMax {l : List (InfoSrc W)} : ∃ lens, l.mapM (fun se => pyMax (strLens se.paths)) = .ok lens ∧
    lens.length = l.length ∧ ∀ se ∈ l, ∃ m ∈ lens, ∀ x ∈ strLens se.paths, x ≤ m := by
  induction l with
  | nil => exact ⟨[], rfl, rfl, by simp⟩
  | cons a l ih =>
    obtain ⟨lens, h1, h2, h3⟩ := ih
    obtain ⟨m, hm⟩ := pyMax_ok (l := strLens a.paths) (by simp [strLens])
    refine ⟨m :: lens, ?_, by simp [h2], fun se hs => ?_⟩
    · rw [List.mapM_cons, hm, h1]
      rfl
    · rcases List.mem_cons.1 hs with rfl | hs
      · exact ⟨m, by simp, pyMax_le hm⟩
      · obtain ⟨m', h, h'⟩ := h3 se hs
        exact ⟨m', by simp [h], h'⟩

/-- What a row must be for a source, apart from the extension names. -/
structure RowFor (f4 : ℚ → ℚ) (se : InfoSrc W) (t : PyStr) (r : InfoRow) : Prop where
  imagePath : r.paths.imagePath = se.paths.imagePath
  weightPath : r.paths.weightPath = se.paths.weightPath
  bmaskPath : r.paths.bmaskPath = se.paths.bmaskPath
  bkgPath : r.paths.bkgPath = se.paths.bkgPath
  imageId : r.nums.imageId = se.nums.imageId
  imageFlags : r.nums.imageFlags = se.nums.imageFlags
  magzp : r.nums.magzp = f4 se.nums.magzp
  scale : r.nums.scale = f4 se.nums.scale
  positionOffset : r.nums.positionOffset = se.nums.positionOffset
  wcs : Plain t → r.wcs = t

/-- The extension names are the ones of the source, cut after three characters. -/
structure CutExts (se : InfoSrc W) (r : InfoRow) : Prop where
  imageExt : r.paths.imageExt = npStr 3 se.paths.imageExt
  weightExt : r.paths.weightExt = npStr 3 se.paths.weightExt
  bmaskExt : r.paths.bmaskExt = npStr 3 se.paths.bmaskExt
  bkgExt : r.paths.bkgExt = npStr 3 se.paths.bkgExt

theorem build_rows {io : WcsIO W} {f4 : ℚ → ℚ} {c : InfoNums} {cw : Option W} {srcs : List (InfoSrc W)}
    (hp : ∀ se ∈ srcs, PlainPaths se.paths) {rows : List InfoRow}
    (h : buildImageInfo io f4 c cw srcs = .ok rows) :
    ∃ ct ts r0 rest, io.dumps cw = .ok ct ∧ List.Forall₂ (fun se t => WritesWcs io se t) srcs ts ∧
      rows = r0 :: rest ∧ r0.nums = { c with magzp := f4 c.magzp, scale := f4 c.scale } ∧
      (Plain ct → r0.wcs = ct) ∧ r0.paths = blankPaths ∧ rest.length = srcs.length ∧
      (∀ (k : Nat) se t r, srcs[k]? = some se → ts[k]? = some t → rest[k]? = some r →
        RowFor f4 se t r ∧ CutExts se r) ∧
      rows.map (fun r => r.nums.imageId) = (List.range rows.length).map (fun k : Nat => (k : ℤ)) := by
  unfold buildImageInfo at h
  simp only [bind_ok_iff] at h
  obtain ⟨ct, hct, ts, hts, wl, hwl, lens, hlens, pl, hpl, h⟩ := h
  obtain ⟨lens', h1, h2, h3⟩ := mapM_pyMax (l := srcs)
  rw [hlens] at h1
  cases h1
  have hids : (infoRows f4 pl wl c ct srcs ts).map (fun r => r.nums.imageId) =
      (List.range (infoRows f4 pl wl c ct srcs ts).length).map (fun k : Nat => (k : ℤ)) := by
    by_contra hne
    rw [if_neg hne] at h
    cases h
  rw [if_pos hids] at h
  cases h
  have hF := wcsTexts_ok.1 hts
  have hlen := hF.length_eq
  have hwl' := pyMax_le hwl
  have hpl' := pyMax_le hpl
  refine ⟨ct, ts, _, _, hct, hF, rfl, rfl, fun hct' => npStr_eq hct' (hwl' _ (by simp)), rfl, ?_, ?_, hids⟩
  · simp [hlen]
  · intro k se t r hse ht hr
    rw [List.getElem?_map, List.getElem?_zip_eq_some (z := (se, t)) |>.2 ⟨hse, ht⟩] at hr
    cases hr
    have hmem : se ∈ srcs := List.mem_of_getElem? hse
    obtain ⟨m, hm, hm'⟩ := h3 se hmem
    have hle : ∀ x ∈ strLens se.paths, x ≤ pl := fun x hx => (hm' x hx).trans (hpl' m hm)
    have hpp := hp se hmem
    refine ⟨⟨npStr_eq hpp.imagePath (hle _ (by simp [strLens])),
      npStr_eq hpp.weightPath (hle _ (by simp [strLens])),
      npStr_eq hpp.bmaskPath (hle _ (by simp [strLens])), npStr_eq hpp.bkgPath (hle _ (by simp [strLens])),
      rfl, rfl, rfl, rfl, rfl, fun ht' => npStr_eq ht' (hwl' _ ?_)⟩, ⟨rfl, rfl, rfl, rfl⟩⟩
    exact List.mem_cons_of_mem _ (List.mem_map.2 ⟨t, List.mem_of_getElem? ht, rfl⟩)

theorem build_ok {io : WcsIO W} {f4 : ℚ → ℚ} {c : InfoNums} {cw : Option W} {srcs : List (InfoSrc W)}
    (hct : ∃ ct, io.dumps cw = .ok ct) (hts : ∀ se ∈ srcs, ∃ t, WritesWcs io se t) (hne : srcs ≠ [])
    (hid : c.imageId :: srcs.map (fun se => se.nums.imageId) =
      (List.range (srcs.length + 1)).map fun k : Nat => (k : ℤ)) :
    ∃ rows, buildImageInfo io f4 c cw srcs = .ok rows := by
  obtain ⟨ct, hct⟩ := hct
  obtain ⟨ts, hF⟩ : ∃ ts, List.Forall₂ (fun se t => WritesWcs io se t) srcs ts := by
    clear hid hne
    induction srcs with
    | nil => exact ⟨[], .nil⟩
    | cons a l ih =>
      obtain ⟨t, ht⟩ := hts a (by simp)
      obtain ⟨ts, h⟩ := ih fun se hs => hts se (by simp [hs])
      exact ⟨t :: ts, .cons ht h⟩
  obtain ⟨wl, hwl⟩ := pyMax_ok (l := ct.length :: ts.map List.length) (by simp)
  obtain ⟨lens, h1, h2, -⟩ := mapM_pyMax (l := srcs)
  obtain ⟨pl, hpl⟩ := pyMax_ok (l := lens) (by
    rintro rfl
    exact hne (List.length_eq_zero_iff.1 h2.symm))
  refine ⟨infoRows f4 pl wl c ct srcs ts, ?_⟩
  unfold buildImageInfo
  simp only [bind_ok_iff]
  refine ⟨ct, hct, ts, wcsTexts_ok.2 hF, wl, hwl, lens, h1, pl, hpl, if_pos ?_⟩
  have hlen : (infoRows f4 pl wl c ct srcs ts).length = srcs.length + 1 := by
    simp [infoRows, hF.length_eq]
  rw [hlen, ← hid]
  unfold infoRows
  rw [List.map_cons, List.map_map]
  refine congrArg₂ _ rfl ?_
  have : (srcs.zip ts).map Prod.fst = srcs := List.map_fst_zip hF.length_eq.le
  conv_rhs => rw [← this]
  rw [List.map_map]
  rfl

/-- **C67** Row `k` of the table has the id `k`. Row 0 has the numbers and the WCS of the coadd, and
no paths. Row `k + 1` has the numbers, the WCS and, completely, the paths of source `k`. -/
theorem C67_rows (io : WcsIO W) (f4 : ℚ → ℚ) (c : InfoNums) (cw : Option W) (srcs : List (InfoSrc W))
    (hp : ∀ se ∈ srcs, PlainPaths se.paths) (rows : List InfoRow)
    (h : buildImageInfo io f4 c cw srcs = .ok rows) :
    rows.length = srcs.length + 1 ∧
    (∀ (k : Nat) r, rows[k]? = some r → r.nums.imageId = k) ∧
    (∀ r, rows[0]? = some r → r.nums = { c with magzp := f4 c.magzp, scale := f4 c.scale } ∧
      r.paths = ⟨[], [], [], [], [], [], [], []⟩ ∧
      ∃ ct, io.dumps cw = .ok ct ∧ (Plain ct → r.wcs = ct)) ∧
    (∀ (k : Nat) se r, srcs[k]? = some se → rows[k + 1]? = some r →
      ∃ t, WritesWcs io se t ∧ RowFor f4 se t r) := by
  obtain ⟨ct, ts, r0, rest, h1, h2, rfl, h3, h4, h5, h6, h7, h8⟩ := build_rows hp h
  refine ⟨by simp [h6], fun k r hr => ?_, fun r hr => ?_, fun k se r hs hr => ?_⟩
  · have := congrArg (fun l => l[k]?) h8
    simp only [List.getElem?_map, hr, Option.map_some] at this
    have hk := (List.getElem?_eq_some_iff.1 hr).1
    rw [List.getElem?_range hk] at this
    simpa using this
  · cases hr
    exact ⟨h3, h5, ct, h1, h4⟩
  · rw [List.getElem?_cons_succ] at hr
    have hk := (List.getElem?_eq_some_iff.1 hs).1
    have hk' : k < ts.length := h2.length_eq ▸ hk
    have ht : ts[k]? = some ts[k] := List.getElem?_eq_getElem hk'
    refine ⟨ts[k], ?_, (h7 k se _ r hs ht hr).1⟩
    have := (List.forall₂_iff_get.1 h2).2 k hk hk'
    have e : srcs[k] = se := (List.getElem?_eq_some_iff.1 hs).2
    simpa [e] using this

/-- **C67** For the ids that loading assigns, with at least one source and readable WCS, the table is
made. -/
theorem C67_loaded {V W' P A R : Type} (w : World V W' P A) (skipSe : Bool) (c c' : LoadSrc W' P A R)
    (l l' : List (LoadSrc W' P A R)) (hl : loadObjects w skipSe c l = .ok (c', l'))
    (io : WcsIO W) (f4 : ℚ → ℚ) (cn : InfoNums) (cw : Option W) (srcs : List (InfoSrc W))
    (hc : c'.imageId = some cn.imageId)
    (hs : l'.map (fun s => s.imageId) = srcs.map fun se => some se.nums.imageId)
    (hct : ∃ ct, io.dumps cw = .ok ct) (hts : ∀ se ∈ srcs, ∃ t, WritesWcs io se t) (hne : srcs ≠ []) :
    ∃ rows, buildImageInfo io f4 cn cw srcs = .ok rows := by
  refine build_ok hct hts hne ?_
  have h := C81_ids w skipSe c c' l l' hl
  rw [List.map_cons, hc, hs] at h
  have hlen : l'.length = l.length := ((C81_loads ..).1 hl).2.1
  have hlen' : l'.length = srcs.length := by simpa using congrArg List.length hs
  rw [← hlen, hlen'] at h
  have h' := congrArg (List.map (Option.getD · 0)) h
  simpa [Function.comp_def] using h'

/-- **C67** Without sources the table cannot be made. -/
theorem C67_no_sources (io : WcsIO W) (f4 : ℚ → ℚ) (c : InfoNums) (cw : Option W) (rows : List InfoRow) :
    buildImageInfo io f4 c cw [] ≠ .ok rows := by
  intro h
  unfold buildImageInfo at h
  simp only [bind_ok_iff] at h
  obtain ⟨ct, hct, ts, hts, wl, hwl, lens, hlens, pl, hpl, h⟩ := h
  cases hlens
  cases hpl

/-- **C68** (partial: only for names of at most three characters) The extension names are stored
completely. -/
theorem C68_ext_partial (io : WcsIO W) (f4 : ℚ → ℚ) (c : InfoNums) (cw : Option W) (srcs : List (InfoSrc W))
    (hp : ∀ se ∈ srcs, PlainPaths se.paths) (rows : List InfoRow)
    (h : buildImageInfo io f4 c cw srcs = .ok rows) (k : Nat) (se : InfoSrc W) (r : InfoRow)
    (hs : srcs[k]? = some se) (hr : rows[k + 1]? = some r) :
    (se.paths.imageExt.length ≤ 3 → r.paths.imageExt = se.paths.imageExt) ∧
    (se.paths.weightExt.length ≤ 3 → r.paths.weightExt = se.paths.weightExt) ∧
    (se.paths.bmaskExt.length ≤ 3 → r.paths.bmaskExt = se.paths.bmaskExt) ∧
    (se.paths.bkgExt.length ≤ 3 → r.paths.bkgExt = se.paths.bkgExt) := by
  obtain ⟨ct, ts, r0, rest, h1, h2, rfl, h3, h4, h5, h6, h7, h8⟩ := build_rows hp h
  rw [List.getElem?_cons_succ] at hr
  have hk' : k < ts.length := h2.length_eq ▸ (List.getElem?_eq_some_iff.1 hs).1
  obtain ⟨e1, e2, e3, e4⟩ := (h7 k se _ r hs (List.getElem?_eq_getElem hk') hr).2
  have hpp := hp se (List.mem_of_getElem? hs)
  rw [e1, e2, e3, e4]
  exact ⟨npStr_eq hpp.imageExt, npStr_eq hpp.weightExt, npStr_eq hpp.bmaskExt, npStr_eq hpp.bkgExt⟩

/-- **C68** does not hold: every longer extension name is stored wrongly, whatever the other inputs. -/
theorem C68_ext_fails (io : WcsIO W) (f4 : ℚ → ℚ) (c : InfoNums) (cw : Option W) (srcs : List (InfoSrc W))
    (hp : ∀ se ∈ srcs, PlainPaths se.paths) (rows : List InfoRow)
    (h : buildImageInfo io f4 c cw srcs = .ok rows) (k : Nat) (se : InfoSrc W) (r : InfoRow)
    (hs : srcs[k]? = some se) (hr : rows[k + 1]? = some r) (hlong : 3 < se.paths.imageExt.length) :
    r.paths.imageExt ≠ se.paths.imageExt := by
  obtain ⟨ct, ts, r0, rest, h1, h2, rfl, h3, h4, h5, h6, h7, h8⟩ := build_rows hp h
  rw [List.getElem?_cons_succ] at hr
  have hk' : k < ts.length := h2.length_eq ▸ (List.getElem?_eq_some_iff.1 hs).1
  obtain ⟨e1, e2, e3, e4⟩ := (h7 k se _ r hs (List.getElem?_eq_getElem hk') hr).2
  intro e
  rw [e1] at e
  have := npStr_length 3 se.paths.imageExt
  rw [e] at this
  omega

/-- All versions are plain strings. -/
structure PlainVersions (v : Versions) : Prop where
  pizzaCutter : Plain v.pizzaCutter
  numpy : Plain v.numpy
  scipy : Plain v.scipy
  esutil : Plain v.esutil
  ngmix : Plain v.ngmix
  fitsio : Plain v.fitsio
  piff : Plain v.piff
  pixmappy : Plain v.pixmappy
  desmeds : Plain v.desmeds
  meds : Plain v.meds
  medsFmt : Plain v.medsFmt

theorem encodeAscii_ok {s : PyStr} {b : List Nat} : encodeAscii s = .ok b ↔
    (∀ c ∈ s, c.toNat < 128) ∧ b = s.map Char.toNat := by
  unfold encodeAscii
  have e : s.all (fun c => decide (c.toNat < 128)) = true ↔ ∀ c ∈ s, c.toNat < 128 := by simp
  by_cases h : ∀ c ∈ s, c.toNat < 128
  · rw [if_pos (e.2 h)]
    exact ⟨fun h' => by cases h'; exact ⟨h, rfl⟩, fun h' => by rw [h'.2]⟩
  · rw [if_neg (fun h' => h (e.1 h'))]
    exact ⟨fun h' => (nomatch h'), fun h' => absurd h'.1 h⟩

theorem plain_nil : Plain [] := fun l h => by simpa using congrArg List.length h

/-- **C69** The metadata can be made exactly if `MEDS_DIR` is set and the tile info is ASCII text. It has
the configuration, the versions and the directories completely (an unset directory as an empty text);
the bytes of the tile info decode to it. -/
theorem C69_metadata (env : String → Option PyStr) (v : Versions) (config json : PyStr)
    (hv : PlainVersions v) (hc : Plain config) (henv : ∀ k s, env k = some s → Plain s)
    (m : Metadata) (b : List Nat) :
    buildMetadata env v config json = .ok (m, b) ↔
      env "MEDS_DIR" = some m.medsDir ∧ m.config = config ∧ m.versions = v ∧
      ((env "PIFF_DATA_DIR" = none ∧ m.piffDataDir = []) ∨ env "PIFF_DATA_DIR" = some m.piffDataDir) ∧
      ((env "DESDATA" = none ∧ m.desdata = []) ∨ env "DESDATA" = some m.desdata) ∧
      (∀ x ∈ b, x < 128) ∧ b.map Char.ofNat = json := by
  have hopt : ∀ k, npStr ((env k).getD [' ']).length ((env k).getD []) = (env k).getD [] := by
    intro k
    cases hk : env k with
    | none => exact npStr_eq plain_nil (by simp)
    | some s => exact npStr_eq (henv k s hk) (by simp)
  have hopt' : ∀ k (s : PyStr), ((env k = none ∧ s = []) ∨ env k = some s) ↔ s = (env k).getD [] := by
    intro k s
    cases env k with
    | none => simp
    | some t => simp [eq_comm]
  have hjson : ((∀ x ∈ b, x < 128) ∧ b.map Char.ofNat = json) ↔
      (∀ c ∈ json, c.toNat < 128) ∧ b = json.map Char.toNat := by
    have hval : ∀ x : Nat, x < 128 → (Char.ofNat x).toNat = x := by
      decide +kernel
    constructor
    · rintro ⟨h1, rfl⟩
      have : (b.map Char.ofNat).map Char.toNat = b := by
        rw [List.map_map]
        conv_rhs => rw [← List.map_id b]
        exact List.map_congr_left fun x hx => hval x (h1 x hx)
      refine ⟨fun c hc => ?_, this.symm⟩
      obtain ⟨x, hx, rfl⟩ := List.mem_map.1 hc
      rw [hval x (h1 x hx)]
      exact h1 x hx
    · rintro ⟨h1, rfl⟩
      refine ⟨fun x hx => ?_, ?_⟩
      · obtain ⟨c, hc, rfl⟩ := List.mem_map.1 hx
        exact h1 c hc
      · rw [List.map_map]
        conv_rhs => rw [← List.map_id json]
        exact List.map_congr_left fun c _ => Char.ofNat_toNat c
  rw [hopt', hopt', hjson]
  unfold buildMetadata
  simp only [bind_ok_iff, lookup_eq_ok, encodeAscii_ok, hopt]
  rw [npStr_eq hc le_rfl, npStr_eq hv.pizzaCutter le_rfl, npStr_eq hv.numpy le_rfl, npStr_eq hv.scipy le_rfl,
    npStr_eq hv.esutil le_rfl, npStr_eq hv.ngmix le_rfl, npStr_eq hv.fitsio le_rfl, npStr_eq hv.piff le_rfl,
    npStr_eq hv.pixmappy le_rfl, npStr_eq hv.desmeds le_rfl, npStr_eq hv.meds le_rfl,
    npStr_eq hv.medsFmt le_rfl]
  constructor
  · rintro ⟨d, hd, b', ⟨h1, h2⟩, e⟩
    rw [npStr_eq (henv _ _ hd) le_rfl] at e
    cases e
    exact ⟨hd, rfl, rfl, rfl, rfl, h1, h2⟩
  · rintro ⟨hd, h1, h2, h3, h4, h5, h6⟩
    refine ⟨m.medsDir, hd, b, ⟨h5, h6⟩, ?_⟩
    rw [npStr_eq (henv _ _ hd) le_rfl, ← h1, ← h2, ← h3, ← h4]
    rfl

/-- **C70** The seed for fpack is valid, and it is the last four digits of the digest unless these are
zero. -/
theorem C70_seed (d : ℤ) : 1 ≤ hashToInt d ∧ hashToInt d ≤ 9999 ∧
    (|d| % 10000 ≠ 0 → hashToInt d = |d| % 10000) := by
  unfold hashToInt
  have h1 : 0 ≤ |d| % 10000 := Int.emod_nonneg _ (by norm_num)
  have h2 : |d| % 10000 < 10000 := Int.emod_lt_of_pos _ (by norm_num)
  norm_num
  omega

/-- A source with long paths. -/
def exInfoSrc (id : ℤ) (ext : String) : InfoSrc Nat where
  paths := ⟨"/a/very/long/path.fits".toList, ext.toList, "w".toList, "wgt".toList, [], [], [], []⟩
  nums := ⟨id, 0, 30, 1, 1⟩
  imageWcs := none
  affine := true

/-- Numbers as WCS. -/
def exWcsIO : WcsIO Nat where
  load _ _ := .error .ioError
  dumps w := match w with
    | some _ => .ok "{}".toList
    | none => .ok "null".toList

example : (buildImageInfo exWcsIO id ⟨0, 0, 30, 1, 1⟩ (some 3) [exInfoSrc 1 "sci", exInfoSrc 2 "image"]).toOption.map
    (fun l => l.map fun r => (r.paths.imagePath, r.paths.imageExt)) =
    some [([], []), ("/a/very/long/path.fits".toList, "sci".toList),
      ("/a/very/long/path.fits".toList, "ima".toList)] := by decide +kernel

example : (buildImageInfo exWcsIO id ⟨0, 0, 30, 1, 1⟩ (some 3) [exInfoSrc 1 "sci", exInfoSrc 2 "image"]).toOption.map
    (fun l => l.map fun r => (r.nums.imageId, r.wcs)) =
    some [(0, "{}".toList), (1, "null".toList), (2, "null".toList)] := by decide +kernel

example : buildImageInfo exWcsIO id ⟨0, 0, 30, 1, 1⟩ (some 3) [exInfoSrc 2 "sci"] = .error .assertionError := by
  decide +kernel

theorem plain_of_last {s : PyStr} (h : s.getLast? ≠ some '\x00') : Plain s := by
  rintro l rfl
  simp at h

example : PlainPaths (exInfoSrc 1 "sci").paths := by
  constructor <;> exact plain_of_last (by decide)

example : (buildMetadata (fun k => if k = "MEDS_DIR" then some "/meds".toList else none)
    ⟨['1'], ['2'], ['3'], ['4'], ['5'], ['6'], ['7'], ['8'], ['9'], ['a'], ['b']⟩ "x: 1".toList
    "{}".toList).toOption.map (fun x => (x.1.medsDir, x.1.desdata, x.2)) =
    some ("/meds".toList, [], [123, 125]) := by decide +kernel

example : hashToInt 12340000 = 1 ∧ hashToInt 56789 = 6789 := by decide +kernel

/-- `C67_rows`, `C68_ext_partial` and `C68_ext_fails` for two sources, the second with a long extension. -/
example (rows : List InfoRow)
    (h : buildImageInfo exWcsIO id ⟨0, 0, 30, 1, 1⟩ (some 3) [exInfoSrc 1 "sci", exInfoSrc 2 "image"] = .ok rows)
    (r1 r2 : InfoRow) (h1 : rows[1]? = some r1) (h2 : rows[2]? = some r2) :
    rows.length = 3 ∧ r1.paths.imageExt = "sci".toList ∧ r2.paths.imageExt ≠ "image".toList := by
  have hp : ∀ se ∈ [exInfoSrc 1 "sci", exInfoSrc 2 "image"], PlainPaths se.paths := by
    simp only [List.mem_cons, List.not_mem_nil, or_false, forall_eq_or_imp, forall_eq]
    refine ⟨?_, ?_⟩ <;> constructor <;> exact plain_of_last (by decide)
  exact ⟨(C67_rows exWcsIO id _ _ _ hp rows h).1,
    (C68_ext_partial exWcsIO id _ _ _ hp rows h 0 (exInfoSrc 1 "sci") r1 rfl h1).1 (by decide),
    C68_ext_fails exWcsIO id _ _ _ hp rows h 1 (exInfoSrc 2 "image") r2 rfl h2 (by decide)⟩

/-- `C67_loaded`: the numbers given by `load_objects_into_info` are those that are asked for. -/
example (c' : LoadSrc ℤ String Unit Unit) (l' : List (LoadSrc ℤ String Unit Unit))
    (hl : loadObjects exWorld false (exLoadSrc 'a' none) [exLoadSrc 'a' none, exLoadSrc 'b' (some ())] = .ok (c', l')) :
    ∃ rows, buildImageInfo exWcsIO id ⟨0, 0, 30, 1, 1⟩ (some 3) [exInfoSrc 1 "sci", exInfoSrc 2 "image"] = .ok rows := by
  have hids := C81_ids exWorld false _ _ _ _ hl
  simp only [List.map_cons, List.length_cons, List.length_nil] at hids
  have h0 : c'.imageId = some 0 := (List.cons.inj hids).1
  have h1 : l'.map (·.imageId) = [some 1, some 2] := (List.cons.inj hids).2
  refine C67_loaded exWorld false _ _ _ _ hl exWcsIO id ⟨0, 0, 30, 1, 1⟩ (some 3) _ h0 h1 ⟨_, rfl⟩ ?_ (by simp)
  intro se hse
  simp only [List.mem_cons, List.not_mem_nil, or_false] at hse
  rcases hse with rfl | rfl <;> exact ⟨_, .inr (.inr ⟨rfl, rfl, fun w h => (by cases h), rfl⟩)⟩

/-- `C69_metadata` with one of the variables set. -/
example (m : Metadata) (b : List Nat) :=
  C69_metadata (fun k => if k = "MEDS_DIR" then some "/meds".toList else none)
    ⟨['1'], ['2'], ['3'], ['4'], ['5'], ['6'], ['7'], ['8'], ['9'], ['a'], ['b']⟩ "x: 1".toList "{}".toList
    (by constructor <;> exact plain_of_last (by decide)) (plain_of_last (by decide))
    (by intro k s h; split at h
        · cases h; exact plain_of_last (by decide)
        · cases h) m b

end Pizza
