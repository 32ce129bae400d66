import Verif.Spec.Program
import Verif.Lemmas.Config
import Verif.Props.CheckInfo
import Verif.Props.Config
import Verif.Props.DesInfo
import Verif.Props.LoadInfo

namespace Pizza

theorem key_ok {α : Type} {f : Yaml → Except Err α} {R : Yaml → α → Prop} (h : ∀ y a, f y = .ok a ↔ R y a)
    {d : Yaml} {k : String} {a : α} : d.key k f = .ok a ↔ ∃ v, At d [k] v ∧ R v a := by
  unfold Yaml.key
  simp only [bind_eq_ok, item_ok, h]

theorem optItem_ok {α : Type} {f : Yaml → Except Err α} {R : Yaml → α → Prop} (hf : ∀ y a, f y = .ok a ↔ R y a)
    {d : Yaml} {k : String} {o : Option α} : d.optItem k f = .ok o ↔ (∃ es, d = .dict es) ∧ MaybeAt R d [k] o := by
  unfold Yaml.optItem
  rw [bind_eq_ok]
  simp only [has_ok]
  by_cases hg : ∃ v, At d [k] v
  · constructor
    · rintro ⟨b, ⟨hd, hb⟩, ho⟩
      rw [if_pos (hb.mpr hg)] at ho
      simp only [bind_eq_ok, pure_ok_iff, item_ok, hf] at ho
      obtain ⟨v, h1, a, h2, rfl⟩ := ho
      exact ⟨hd, .given v a h1 h2⟩
    · rintro ⟨hd, ho⟩
      refine ⟨true, ⟨hd, iff_of_true rfl hg⟩, ?_⟩
      rw [if_pos rfl]
      simp only [bind_eq_ok, pure_ok_iff, item_ok, hf]
      cases ho with
      | absent ha => obtain ⟨v, hv⟩ := hg; exact absurd hv (ha v)
      | given v a h1 h2 => exact ⟨v, h1, a, h2, rfl⟩
  · constructor
    · rintro ⟨b, ⟨hd, hb⟩, ho⟩
      rw [if_neg (fun hb' => hg (hb.mp hb')), pure_ok_iff] at ho
      subst ho
      exact ⟨hd, .absent fun v hv => hg ⟨v, hv⟩⟩
    · rintro ⟨hd, ho⟩
      refine ⟨false, ⟨hd, iff_of_false (by simp) hg⟩, ?_⟩
      rw [if_neg (by simp), pure_ok_iff]
      cases ho with
      | absent => rfl
      | given v a h1 => exact absurd ⟨v, h1⟩ hg

theorem asText_ok {y : Yaml} {s : PyStr} : y.asText = .ok s ↔ IsText y s := by
  unfold Yaml.asText IsText
  constructor
  · intro h
    cases hy : y.asStr with
    | error e => rw [hy] at h; cases h
    | ok t =>
      rw [hy] at h
      cases h
      rw [asStr_ok.mp hy, String.ofList_toList]
  · rintro rfl
    rw [asStr_ok.mpr rfl]
    simp [Except.map]

theorem asStat_ok {y : Yaml} {s : Stat} : y.asStat = .ok s ↔ IsStat y s := by
  by_cases hy : y = .nan
  · subst hy
    constructor
    · intro h; cases h; exact .nan
    · intro h
      cases h with
      | nan => rfl
      | num _ q h => cases h
  · have he : y.asStat = y.asNum.map some := by cases y <;> first | rfl | exact absurd rfl hy
    rw [he]
    constructor
    · intro h
      cases hn : y.asNum with
      | error e => rw [hn] at h; cases h
      | ok q => rw [hn] at h; cases h; exact .num _ _ (asNum_ok.mp hn)
    · intro h
      cases h with
      | nan => exact absurd rfl hy
      | num _ q h => rw [asNum_ok.mpr h]; rfl

theorem optText_ok {y : Yaml} {o : Option PyStr} : y.asOpt Yaml.asText = .ok o ↔ IsOptional IsText y o :=
  asOpt_ok (fun _ _ => asText_ok)

theorem ints_ok {y : Yaml} {l : List ℤ} : y.asList Yaml.asInt = .ok l ↔ y = .list (l.map .int) := by
  rw [asList_ok (fun a b => asInt_ok)]
  constructor
  · rintro ⟨m, h1, h2⟩; rw [h1, forall₂_int.mp h2]
  · rintro h; exact ⟨_, h, forall₂_int.mpr rfl⟩

theorem pureVal_ok (y : Yaml) (v : Yaml) : (pure y : Except Err Yaml) = .ok v ↔ y = v := by
  rw [pure_ok_iff, eq_comm]

theorem piffInfoOf_ok {y : Yaml} {p : PiffInfo} : piffInfoOf y = .ok p ↔ IsPiffInfo y p := by
  unfold piffInfoOf
  simp only [bind_eq_ok, pure_ok_iff, key_ok (fun _ _ => asInt_ok), key_ok (fun _ _ => asStat_ok)]
  constructor
  · rintro ⟨_, ⟨_, h1, rfl⟩, _, h2, _, h3, _, h4, _, ⟨_, h5, rfl⟩, _, h6, _, h7, rfl⟩
    exact ⟨h1, h2, h3, h4, h5, h6, h7⟩
  · rintro ⟨h1, h2, h3, h4, h5, h6, h7⟩
    exact ⟨_, ⟨_, h1, rfl⟩, _, h2, _, h3, _, h4, _, ⟨_, h5, rfl⟩, _, h6, _, h7, rfl⟩

theorem loadSrcOf_ok {P : Type} {d : Yaml} {l : Loaded P} : loadSrcOf d = .ok l ↔ LoadView d l := by
  unfold loadSrcOf
  simp only [bind_eq_ok, pure_ok_iff, optItem_ok (fun _ _ => asText_ok), optItem_ok (fun _ _ => optText_ok),
    optItem_ok (fun _ _ => asInt_ok), optItem_ok (fun _ _ => ints_ok), optItem_ok pureVal_ok]
  constructor
  · rintro ⟨_, ⟨hd, h1⟩, _, ⟨-, h2⟩, _, ⟨-, h3⟩, _, ⟨-, h4⟩, _, ⟨-, h5⟩, _, ⟨-, h6⟩, _, ⟨-, h7⟩, _, ⟨-, h8⟩, _, ⟨-, h9⟩,
      _, ⟨-, h10⟩, _, ⟨-, h11⟩, rfl⟩
    exact ⟨hd, h1, h2, h3, h4, ⟨_, h5, rfl⟩, h6, h7, h8, h9, h10, h11, rfl, rfl, rfl, rfl, rfl, rfl, rfl, rfl, rfl, rfl⟩
  · rintro ⟨hd, h1, h2, h3, h4, ⟨_, h5, h5'⟩, h6, h7, h8, h9, h10, h11, h12, g1, g2, g3, g4, g5, g6, g7, g8, g9⟩
    refine ⟨_, ⟨hd, h1⟩, _, ⟨hd, h2⟩, _, ⟨hd, h3⟩, _, ⟨hd, h4⟩, _, ⟨hd, h5⟩, _, ⟨hd, h6⟩, _, ⟨hd, h7⟩, _, ⟨hd, h8⟩, _,
      ⟨hd, h9⟩, _, ⟨hd, h10⟩, _, ⟨hd, h11⟩, ?_⟩
    cases l
    simp_all

theorem flagSrcOf_ok {P : Type} {l : Loaded P} (hd : ∃ es, l.rest = .dict es) {f : FlagSrc (Loaded P)} :
    flagSrcOf l = .ok f ↔ FlagView l f := by
  unfold flagSrcOf
  simp only [bind_eq_ok, pure_ok_iff, key_ok (fun _ _ => asNat_ok), optItem_ok (fun _ _ => piffInfoOf_ok), lookup_ok]
  constructor
  · rintro ⟨_, ⟨_, h1, rfl⟩, _, ⟨-, h2⟩, _, h3, rfl⟩
    exact ⟨h1, h2, h3, Option.isSome_iff_exists, Option.isSome_iff_exists, rfl⟩
  · rintro ⟨h1, h2, h3, h4, h5, h6⟩
    refine ⟨_, ⟨_, h1, rfl⟩, _, ⟨hd, h2⟩, _, h3, ?_⟩
    rw [← Option.isSome_iff_exists, ← Bool.eq_iff_iff] at h4 h5
    cases f
    simp_all

theorem lookup_map_mem {α : Type} (f : String → α) (keys : List String) (k : String) :
    (keys.map fun k => (k, f k)).lookup k = if k ∈ keys then some (f k) else none := by
  induction keys with
  | nil => rfl
  | cons a l ih =>
    rw [List.map_cons, List.lookup_cons]
    by_cases h : k = a
    · subst h; simp
    · rw [beq_eq_false_iff_ne.mpr h]
      simp [h, ih]

theorem pathsOf_ok {d : Yaml} {keys : List String} {f : String → Option (Option PyStr)} (hk : keys ≠ []) :
    (∃ l, pathsOf d keys = .ok l ∧ f = fun k => (l.lookup k).join) ↔ (∃ es, d = .dict es) ∧ PathsOf d keys f := by
  have hm : ∀ l, pathsOf d keys = .ok l ↔ List.Forall₂ (fun k (x : String × Option (Option PyStr)) =>
      (∃ es, d = .dict es) ∧ MaybeAt (IsOptional IsText) d [k] x.2 ∧ x.1 = k) keys l := by
    intro l
    refine mapM_rel ?_
    intro k x
    simp only [bind_eq_ok, pure_ok_iff, optItem_ok (fun _ _ => optText_ok)]
    constructor
    · rintro ⟨v, ⟨hd, h⟩, rfl⟩; exact ⟨hd, h, rfl⟩
    · rintro ⟨hd, h, rfl⟩; exact ⟨x.2, ⟨hd, h⟩, rfl⟩
  simp only [hm]
  constructor
  · rintro ⟨l, h, rfl⟩
    have hd : ∃ es, d = .dict es := by
      cases h with
      | nil => exact absurd rfl hk
      | cons h _ => exact h.1
    refine ⟨hd, ?_⟩
    clear hk hm
    induction h with
    | nil => intro k; simp
    | @cons a x keys l h1 h2 ih =>
      obtain ⟨y, v⟩ := x
      obtain ⟨-, h1, rfl⟩ := h1
      intro k
      dsimp only
      rw [List.lookup_cons]
      by_cases hka : k = y
      · subst hka; simpa using h1
      · rw [beq_eq_false_iff_ne.mpr hka]
        have := ih k
        simpa [hka] using this
  · rintro ⟨hd, hf⟩
    refine ⟨keys.map fun k => (k, f k), ?_, ?_⟩
    · rw [List.forall₂_map_right_iff]
      exact List.forall₂_same.2 fun k hk => ⟨hd, (hf k).1 hk, rfl⟩
    · funext k
      rw [lookup_map_mem]
      by_cases hk : k ∈ keys
      · rw [if_pos hk]; rfl
      · rw [if_neg hk, (hf k).2 hk]; rfl

theorem checkSrcOf_ok {d : Yaml} {s : CheckSrc} : checkSrcOf d = .ok s ↔ CheckSrcFrom d s := by
  unfold checkSrcOf
  have hp := fun f => pathsOf_ok (d := d) (keys := seKeys ++ ["head_path"]) (f := f) (by simp)
  have hq : ∀ f, PathsOf d (seKeys ++ ["head_path"]) f ↔ PathsOf d ["image_path", "bkg_path", "bmask_path", "piff_path",
      "psfex_path", "psf_path", "seg_path", "weight_path", "head_path"] f := by
    intro f
    have : ∀ k, k ∈ seKeys ++ ["head_path"] ↔ k ∈ ["image_path", "bkg_path", "bmask_path", "piff_path",
      "psfex_path", "psf_path", "seg_path", "weight_path", "head_path"] := by
      intro k
      simp only [seKeys, List.cons_append, List.nil_append, List.mem_cons, List.not_mem_nil, or_false]
      tauto
    unfold PathsOf
    simp only [this]
  simp only [bind_eq_ok, pure_ok_iff, optItem_ok (fun _ _ => asText_ok), optItem_ok (fun _ _ => asNat_ok)]
  constructor
  · rintro ⟨l, h0, _, ⟨hd, h1⟩, _, ⟨-, h2⟩, _, ⟨-, h3⟩, _, ⟨-, h4⟩, rfl⟩
    exact ⟨hd, (hq _).mp ((hp _).mp ⟨l, h0, rfl⟩).2, h1, h2, h3, h4⟩
  · rintro ⟨hd, h0, h1, h2, h3, h4⟩
    obtain ⟨l, h5, h6⟩ := (hp _).mpr ⟨hd, (hq _).mpr h0⟩
    refine ⟨l, h5, _, ⟨hd, h1⟩, _, ⟨hd, h2⟩, _, ⟨hd, h3⟩, _, ⟨hd, h4⟩, ?_⟩
    rw [← h6]

theorem checkInfoOf_ok {info : Yaml} {srcs : List Yaml} {c : CheckInfo} :
    checkInfoOf info srcs = .ok c ↔ CheckFrom info srcs c := by
  unfold checkInfoOf
  have hp := fun f => pathsOf_ok (d := info) (keys := coaddKeys ++ ["cat_path"]) (f := f) (by simp)
  simp only [bind_eq_ok, pure_ok_iff, optItem_ok (fun _ _ => asText_ok), optItem_ok (fun _ _ => asNum_ok),
    mapM_rel (fun _ _ => checkSrcOf_ok)]
  constructor
  · rintro ⟨l, h0, _, ⟨hd, h1⟩, _, ⟨-, h2⟩, _, h3, rfl⟩
    exact ⟨hd, ((hp _).mp ⟨l, h0, rfl⟩).2, h1, h2, h3⟩
  · rintro ⟨hd, h0, h1, h2, h3⟩
    obtain ⟨l, h5, h6⟩ := (hp _).mpr ⟨hd, h0⟩
    refine ⟨l, h5, _, ⟨hd, h1⟩, _, ⟨hd, h2⟩, _, h3, ?_⟩
    rw [← h6]

theorem numsOf_ok {P : Type} {l : Loaded P} {flags : ℤ} {n : InfoNums} :
    numsOf l flags = .ok n ↔ l.imageId = some n.imageId ∧ n.imageFlags = flags ∧ NumsFrom l.rest n := by
  unfold numsOf
  simp only [bind_eq_ok, pure_ok_iff, key_ok (fun _ _ => asNum_ok), lookup_ok]
  constructor
  · rintro ⟨_, h0, _, h1, _, h2, _, h3, rfl⟩
    exact ⟨h0, rfl, h1, h2, h3⟩
  · rintro ⟨h0, rfl, h1, h2, h3⟩
    exact ⟨_, h0, _, h1, _, h2, _, h3, rfl⟩

theorem infoPathsOf_ok {d : Yaml} {p : InfoPaths} : infoPathsOf d = .ok p ↔ PathsFrom d p := by
  unfold infoPathsOf
  simp only [bind_eq_ok, pure_ok_iff, key_ok (fun _ _ => asText_ok)]
  constructor
  · rintro ⟨_, ⟨_, h1, rfl⟩, _, ⟨_, h2, rfl⟩, _, ⟨_, h3, rfl⟩, _, ⟨_, h4, rfl⟩, _, ⟨_, h5, rfl⟩, _, ⟨_, h6, rfl⟩,
      _, ⟨_, h7, rfl⟩, _, ⟨_, h8, rfl⟩, rfl⟩
    exact ⟨h1, h2, h3, h4, h5, h6, h7, h8⟩
  · rintro ⟨h1, h2, h3, h4, h5, h6, h7, h8⟩
    exact ⟨_, ⟨_, h1, rfl⟩, _, ⟨_, h2, rfl⟩, _, ⟨_, h3, rfl⟩, _, ⟨_, h4, rfl⟩, _, ⟨_, h5, rfl⟩, _, ⟨_, h6, rfl⟩,
      _, ⟨_, h7, rfl⟩, _, ⟨_, h8, rfl⟩, rfl⟩

theorem shapePair_ok {o : Option (List ℤ)} {s : Option (Nat × Nat)} : shapePair o = .ok s ↔ IsShape o s := by
  unfold IsShape
  constructor
  · intro h
    match o with
    | none => cases h; rfl
    | some [.ofNat a, .ofNat b] => cases h; rfl
    | some [] => cases h
    | some [.ofNat _] => cases h
    | some [.negSucc _] => cases h
    | some (.negSucc _ :: _ :: _) => cases h
    | some [.ofNat _, .negSucc _] => cases h
    | some (.ofNat _ :: .ofNat _ :: _ :: _) => cases h
    | some (.ofNat _ :: .negSucc _ :: _ :: _) => cases h
  · rintro rfl
    cases s with
    | none => rfl
    | some p => rfl

theorem sourceOf_ok {P : Type} {f : FlagSrc (Loaded P)} {x : InfoSrc WcsObj × Entry P} :
    sourceOf f = .ok x ↔ SourceFrom f x := by
  unfold sourceOf
  simp only [bind_eq_ok, pure_ok_iff, infoPathsOf_ok, numsOf_ok, shapePair_ok]
  constructor
  · rintro ⟨p, h1, n, ⟨h2, h3, h4⟩, s, h5, rfl⟩
    exact ⟨h1, h4, h2, h3, rfl, Option.isSome_iff_exists, ⟨rfl, rfl, rfl, rfl⟩, ⟨rfl, rfl⟩, ⟨rfl, rfl, rfl, rfl⟩,
      ⟨rfl, rfl, rfl, rfl, rfl, rfl, rfl, rfl⟩, h5⟩
  · rintro ⟨h1, h2, h3, h4, h5, h6, ⟨g1, g2, g3, g4⟩, ⟨g5, g6⟩, ⟨f1, f2, f3, f4⟩, ⟨e1, e2, e3, e4, e5, e6, e7, e8⟩, h7⟩
    refine ⟨_, h1, _, ⟨h3, h4, h2⟩, _, h7, ?_⟩
    rw [← Option.isSome_iff_exists, ← Bool.eq_iff_iff] at h6
    obtain ⟨⟨p, n, w, a⟩, e⟩ := x
    obtain ⟨src, _⟩ := e
    obtain ⟨_⟩ := src
    dsimp only at *
    subst_vars
    rfl

theorem coaddWcsOf_ok {P : Type} {c : Loaded P} {t : String} {w : WcsObj} :
    coaddWcsOf c t = .ok w ↔ CoaddWcs c t w := by
  unfold coaddWcsOf CoaddWcs
  by_cases h1 : t = "image"
  · subst h1
    rw [if_pos rfl]
    match c.imageWcs with
    | none => simp
    | some none => simp
    | some (some x) => simp
  · rw [if_neg h1]
    by_cases h2 : t = "affine"
    · subst h2
      rw [if_pos rfl, lookup_ok]
      simp
    · rw [if_neg h2]
      simp [h1, h2]

theorem fpackOf_ok {text : Yaml → String} {cfg : Yaml} {o : Option (List (String × String))} :
    fpackOf text cfg = .ok o ↔ (∃ es, cfg = .dict es) ∧ FpackFrom text cfg o := by
  unfold fpackOf
  simp only [bind_eq_ok, optItem_ok pureVal_ok]
  constructor
  · rintro ⟨v, ⟨hd, h⟩, ho⟩
    refine ⟨hd, ?_⟩
    cases h with
    | absent h => cases ho; exact .absent h
    | given y _ h he =>
      subst he
      cases y <;> cases ho
      · exact .null h
      · exact .given _ h
  · rintro ⟨hd, h⟩
    cases h with
    | absent h => exact ⟨none, ⟨hd, .absent h⟩, rfl⟩
    | null h => exact ⟨some .null, ⟨hd, .given _ _ h rfl⟩, rfl⟩
    | given l h => exact ⟨some (.dict l), ⟨hd, .given _ _ h rfl⟩, rfl⟩

theorem flagOptions_some {cfg : Yaml} {o : Option FlagCfg} {se : Yaml} (h : At cfg ["single_epoch"] se) :
    flagOptions cfg = .ok o ↔ (∃ es, se = .dict es) ∧ ∃ f, o = some f ∧ FlagEntries cfg f := by
  constructor
  · intro ho
    have hd : ∃ es, se = .dict es := by
      have ho' := ho
      unfold flagOptions at ho'
      have hhas : cfg.has "single_epoch" = .ok true := has_ok.mpr ⟨h.isDict, iff_of_true rfl ⟨se, h⟩⟩
      rw [hhas, ok_bind, if_pos rfl, item_ok.mpr h, ok_bind, bind_eq_ok] at ho'
      obtain ⟨cuts, hc, -⟩ := ho'
      exact ((optItem_ok (fun _ _ => piffCutsOf_ok)).mp hc).1
    exact ⟨hd, (flagOptions_ok h hd o).mp ho⟩
  · rintro ⟨hd, ho⟩
    exact (flagOptions_ok h hd o).mpr ho

theorem flagAll_ok {R : Type} {cfg : FlagCfg} {l m : List (FlagSrc R)} :
    flagAll (some cfg) l = .ok m ↔ List.Forall₂ (fun jj ii => SameButFlags jj ii ∧
      (∀ b, jj.imageFlags.testBit b = true ↔ ii.imageFlags.testBit b = true ∨ Adds cfg ii b) ∧
      ((∃ cuts p b, cfg.piffCuts = some cuts ∧ ii.piffInfo = some p ∧ Violates cuts p b) →
        ii.hasPath = true ∧ ii.hasFilename = true)) m l := by
  unfold flagAll
  have hret := C79_returns (some cfg) l
  constructor
  · intro h
    cases hx : flagDataInInfo (some cfg) l with
    | mk x o =>
      rw [hx] at h
      cases o with
      | some e => cases h
      | none =>
        cases h
        have h1 := C79_flags cfg l _ hx
        rw [hx] at hret
        have hn : ∀ ii ∈ l, ¬ Unnamed cfg ii := by
          rcases hret.mp rfl with rfl | ⟨c, hc, h⟩
          · simp
          · cases hc; exact h
        clear hx hret
        induction h1 with
        | nil => exact .nil
        | cons h1 _ ih =>
          refine .cons ⟨h1.1, h1.2, fun hv => ?_⟩ (ih fun ii hi => hn ii (by simp [hi]))
          by_contra hc
          exact hn _ (by simp) ⟨hv, hc⟩
  · intro h
    have hn : (flagDataInInfo (some cfg) l).2 = none := by
      rw [hret]
      refine .inr ⟨cfg, rfl, fun ii hi hu => ?_⟩
      clear hret
      induction h with
      | nil => simp at hi
      | cons h1 _ ih =>
        rcases List.mem_cons.1 hi with rfl | hi
        · exact hu.2 (h1.2.2 hu.1)
        · exact ih hi
    cases hx : flagDataInInfo (some cfg) l with
    | mk x o =>
      rw [hx] at hn
      cases hn
      have h1 := C79_flags cfg l _ hx
      dsimp only
      congr 1
      clear hx hret
      induction h1 generalizing m with
      | nil => cases h; rfl
      | @cons x y xs ys h1 _ ih =>
        cases h with
        | @cons z _ zs _ g1 g2 =>
          obtain ⟨⟨a1, a2, a3, a4, a5⟩, a6⟩ := h1
          obtain ⟨⟨b1, b2, b3, b4, b5⟩, b6, -⟩ := g1
          have hf : x.imageFlags = z.imageFlags := Nat.eq_of_testBit_eq fun i => by
            rw [Bool.eq_iff_iff, a6, b6]
          rw [ih g2]
          congr 1
          cases x; cases z
          dsimp only at *
          rw [hf, a1, a2, a3, a4, a5, b1, b2, b3, b4, b5]

theorem forall₂_index {α β : Type} {R : α → β → Prop} {l : List α} {m : List β} :
    List.Forall₂ R l m ↔ m.length = l.length ∧ ∀ (k : Nat) a b, l[k]? = some a → m[k]? = some b → R a b := by
  rw [List.forall₂_iff_get]
  constructor
  · rintro ⟨h, h'⟩
    refine ⟨h.symm, fun k a b ha hb => ?_⟩
    obtain ⟨h1, rfl⟩ := List.getElem?_eq_some_iff.1 ha
    obtain ⟨h2, rfl⟩ := List.getElem?_eq_some_iff.1 hb
    exact h' k h1 h2
  · rintro ⟨h, h'⟩
    exact ⟨h.symm, fun k h1 h2 => h' k _ _ (List.getElem?_eq_getElem h1) (List.getElem?_eq_getElem h2)⟩

/-- A list of the same length can be made element by element. -/
theorem list_choose {α β : Type} {R : Nat → α → β → Prop} (l : List α)
    (h : ∀ (k : Nat) a, l[k]? = some a → ∃ b, R k a b) :
    ∃ m : List β, m.length = l.length ∧ ∀ (k : Nat) a b, l[k]? = some a → m[k]? = some b → R k a b := by
  induction l using List.reverseRecOn with
  | nil => exact ⟨[], rfl, by simp⟩
  | append_singleton l a ih =>
    obtain ⟨m, h1, h2⟩ := ih fun k b hk => h k b (by
      rw [List.getElem?_append_left (List.getElem?_eq_some_iff.1 hk).1]; exact hk)
    obtain ⟨b, hb⟩ := h l.length a (by simp)
    refine ⟨m ++ [b], by simp [h1], fun k x y hx hy => ?_⟩
    rcases lt_trichotomy k l.length with hk | hk | hk
    · rw [List.getElem?_append_left hk] at hx
      rw [List.getElem?_append_left (h1 ▸ hk)] at hy
      exact h2 k x y hx hy
    · subst hk
      rw [List.getElem?_append_right le_rfl] at hx
      rw [List.getElem?_append_right h1.le] at hy
      simp [h1] at hx hy
      subst hx; subst hy
      exact hb
    · have := (List.getElem?_eq_some_iff.1 hx).1
      simp at this
      omega

variable {σ P V ρ : Type}

theorem LoadView.unique {d : Yaml} {l m : Loaded P} (h : LoadView d l) (h' : LoadView d m) : l = m := by
  rw [← loadSrcOf_ok] at h h'
  rw [h] at h'
  exact Except.ok.inj h'

theorem FlagView.unique {l : Loaded P} {f g : FlagSrc (Loaded P)} (hd : ∃ es, l.rest = .dict es) (h : FlagView l f)
    (h' : FlagView l g) : f = g := by
  rw [← flagSrcOf_ok hd] at h h'
  rw [h] at h'
  exact Except.ok.inj h'

/-- Loading and flagging of the sources. -/
theorem sources_ok {w : ProgWorld σ P V ρ} {fc : FlagCfg} {srcs : List Yaml} {c0 c : Loaded P} {fl : List (FlagSrc (Loaded P))} :
    (∃ l0 l1 f0, srcs.mapM loadSrcOf = .ok l0 ∧ loadObjects w.load true c0 l0 = .ok (c, l1) ∧
      l1.mapM flagSrcOf = .ok f0 ∧ flagAll (some fc) f0 = .ok fl) ↔
    LoadedCoadd w.load c0 c ∧ fl.length = srcs.length ∧
      ∀ (k : Nat) d f, srcs[k]? = some d → fl[k]? = some f → FlaggedFrom w fc k d f := by
  simp only [C81_loads, flagAll_ok, mapM_rel (fun _ _ => loadSrcOf_ok)]
  constructor
  · rintro ⟨l0, l1, f0, h0, ⟨hc, hlen, hl⟩, h1, h2⟩
    have hd : ∀ (k : Nat) l, l1[k]? = some l → ∃ d ii, srcs[k]? = some d ∧ l0[k]? = some ii ∧ LoadView d ii ∧
        LoadedSrc w.load true k ii l := by
      intro k l hk
      have h3 := (List.getElem?_eq_some_iff.1 hk).1
      have h4 : k < l0.length := hlen ▸ h3
      have h5 : k < srcs.length := h0.length_eq ▸ h4
      exact ⟨_, _, List.getElem?_eq_getElem h5, List.getElem?_eq_getElem h4,
        (forall₂_index.mp h0).2 k _ _ (List.getElem?_eq_getElem h5) (List.getElem?_eq_getElem h4),
        hl k _ _ (List.getElem?_eq_getElem h4) hk⟩
    have hdict : ∀ l ∈ l1, ∃ es, l.rest = .dict es := by
      intro l hl'
      obtain ⟨k, hk⟩ := List.mem_iff_getElem?.1 hl'
      obtain ⟨d, ii, -, -, hv, hs⟩ := hd k l hk
      rw [hs.same.rest, hv.rest]
      exact hv.dict
    have h1' : List.Forall₂ FlagView l1 f0 := by
      have : List.Forall₂ (fun l f => flagSrcOf l = .ok f) l1 f0 := (mapM_rel (fun _ _ => Iff.rfl)).mp h1
      rw [forall₂_index] at this ⊢
      exact ⟨this.1, fun k a b ha hb => (flagSrcOf_ok (hdict a (List.mem_of_getElem? ha))).mp (this.2 k a b ha hb)⟩
    have hlen' : fl.length = srcs.length := by rw [h2.length_eq, ← h1'.length_eq, hlen, h0.length_eq]
    refine ⟨hc, hlen', fun k d f hk hf => ?_⟩
    have hk' := (List.getElem?_eq_some_iff.1 hf).1
    have k1 : k < f0.length := h2.length_eq ▸ hk'
    have k2 : k < l1.length := h1'.length_eq ▸ k1
    obtain ⟨d', ii, e1, -, hv, hs⟩ := hd k _ (List.getElem?_eq_getElem k2)
    rw [hk] at e1
    cases e1
    obtain ⟨g1, g2, g3⟩ := (forall₂_index.mp h2).2 k _ _ hf (List.getElem?_eq_getElem k1)
    have g4 := (forall₂_index.mp h1').2 k _ _ (List.getElem?_eq_getElem k2) (List.getElem?_eq_getElem k1)
    have e : f.rest = l1[k] := by rw [g1.rest, g4.rest]
    exact ⟨⟨ii, hv, e ▸ hs⟩, ⟨_, e ▸ g4, g1, g2, g3⟩⟩
  · rintro ⟨hc, hlen, h⟩
    obtain ⟨m, hm, hm'⟩ := list_choose (R := fun k (a : Yaml × FlagSrc (Loaded P)) (b : Loaded P × FlagSrc (Loaded P)) =>
        LoadView a.1 b.1 ∧ LoadedSrc w.load true k b.1 a.2.rest ∧ FlagView a.2.rest b.2 ∧ SameButFlags a.2 b.2 ∧
        (∀ i, a.2.imageFlags.testBit i = true ↔ b.2.imageFlags.testBit i = true ∨ Adds fc b.2 i) ∧
        ((∃ cuts p i, fc.piffCuts = some cuts ∧ b.2.piffInfo = some p ∧ Violates cuts p i) →
          b.2.hasPath = true ∧ b.2.hasFilename = true)) (srcs.zip fl) (by
      rintro k ⟨d, f⟩ hk
      obtain ⟨h1, h2⟩ := List.getElem?_zip_eq_some.1 hk
      obtain ⟨⟨l, g1, g2⟩, ⟨f0, g3, g4, g5, g6⟩⟩ := h k d f h1 h2
      exact ⟨(l, f0), g1, g2, g3, g4, g5, g6⟩)
    have hz : (srcs.zip fl).length = srcs.length := by simp [hlen]
    have hat : ∀ (k : Nat) d f x, srcs[k]? = some d → fl[k]? = some f → m[k]? = some x → _ := fun k d f x h1 h2 h3 =>
      hm' k (d, f) x (List.getElem?_zip_eq_some.2 ⟨h1, h2⟩) h3
    have hget : ∀ k : Nat, k < srcs.length → ∃ d f x, srcs[k]? = some d ∧ fl[k]? = some f ∧ m[k]? = some x := fun k hk =>
      ⟨_, _, _, List.getElem?_eq_getElem hk, List.getElem?_eq_getElem (hlen ▸ hk),
        List.getElem?_eq_getElem (by rw [hm, hz]; exact hk)⟩
    refine ⟨m.map Prod.fst, fl.map (·.rest), m.map Prod.snd, ?_, ⟨hc, by simp [hm, hlen], ?_⟩, ?_, ?_⟩
    · rw [forall₂_index]
      refine ⟨by simp [hm, hlen], fun k d l hk hl => ?_⟩
      obtain ⟨d', f, x, e1, e2, e3⟩ := hget k (List.getElem?_eq_some_iff.1 hk).1
      rw [hk] at e1; cases e1
      rw [List.getElem?_map, e3] at hl
      cases hl
      exact (hat k d f x hk e2 e3).1
    · intro k ii jj hi hj
      rw [List.getElem?_map] at hi hj
      obtain ⟨d, f, x, e1, e2, e3⟩ := hget k (by
        by_contra hk
        rw [List.getElem?_eq_none (by rw [hm, hz]; omega)] at hi
        cases hi)
      rw [e3] at hi; rw [e2] at hj
      cases hi; cases hj
      exact (hat k d f x e1 e2 e3).2.1
    · refine (mapM_rel (R := fun l f => flagSrcOf l = .ok f) (fun _ _ => Iff.rfl)).mpr ?_
      rw [forall₂_index]
      refine ⟨by simp [hm, hlen], fun k l g hl hg => ?_⟩
      rw [List.getElem?_map] at hl hg
      obtain ⟨d, f, x, e1, e2, e3⟩ := hget k (by
        by_contra hk
        rw [List.getElem?_eq_none (by rw [hm, hz]; omega)] at hg
        cases hg)
      rw [e2] at hl; rw [e3] at hg
      cases hl; cases hg
      obtain ⟨a1, a2, a3, -⟩ := hat k d f x e1 e2 e3
      refine (flagSrcOf_ok ?_).mpr a3
      rw [a2.same.rest, a1.rest]
      exact a1.dict
    · rw [forall₂_index]
      refine ⟨by simp [hm, hlen], fun k f g hf hg => ?_⟩
      rw [List.getElem?_map] at hg
      obtain ⟨d, f', x, e1, e2, e3⟩ := hget k (by
        by_contra hk
        rw [List.getElem?_eq_none (by rw [hm, hz]; omega)] at hg
        cases hg)
      rw [hf] at e2; cases e2
      rw [e3] at hg; cases hg
      obtain ⟨-, -, -, a4, a5, a6⟩ := hat k d f x e1 hf e3
      exact ⟨a4, a5, a6⟩

end Pizza
