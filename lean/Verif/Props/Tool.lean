import Verif.Proofs.Tool
import Verif.Props.Diff

/-!
# C47, C48: exporting and importing fields with the tool application
-/

namespace Spoc.Props

open Spec Text AppUtils Tool

/-! ## C47 -/

/-- The coordinates of the field (if it is a coordinate) have at most 16 significant decimal digits. -/
def Printable (fld : Field) (f : SpocFile) : Prop :=
  ∀ p ∈ f.prs, ∀ x : F64, fld.isCoord = true → fld.get p = some x.bits.toNat → Digits 16 x

theorem bits_inj {x y : F64} (h : x.bits.toNat = y.bits.toNat) : x = y := by
  cases x; cases y; simp only at h; rw [UInt64.toNat_inj.mp h]

/-- **C47** (partial: coordinates must have at most 16 significant digits, see `c47_lossy` and `c47_not_finite`).  For every file and
every field that its points have, the text that get-field prints is accepted by set-field for the same file, and the result
is the file. -/
theorem c47_roundtrip_partial (b : Build) (f : SpocFile) (hu : Uniform f.prs) (fld : Field) (hidx : ∀ n, fld = .e n → n < 2 ^ 31)
    (hget : ∀ p ∈ f.prs, fld.get p ≠ none) (hp : Printable fld f) :
    ∃ t, getField b f fld.name = .ok t ∧ setField b f { rest := t } fld.name = .ok f := by
  refine ⟨_, getField_eq b f hidx hget, ?_⟩
  set items := f.prs.map (fun p => (fieldText fld p, ['\n'])) with hitems
  have hsep : ∀ i ∈ items, IsSep i.2 := by
    intro i hi
    obtain ⟨p, -, rfl⟩ := List.mem_map.mp hi
    exact newline_sep
  have hlen : items.length = f.prs.length := by simp [hitems]
  cases hc : fld.isCoord with
  | false =>
    have hr := readValues_all (read := fun s => s.readU64 0) (val := fun w => UInt64.ofNat (decVal w)) (items := items) hsep
      (by
        intro i hi ws r hw hr
        obtain ⟨p, hpf, rfl⟩ := List.mem_map.mp hi
        obtain ⟨v, hv⟩ := Option.ne_none_iff_exists'.mp (hget p hpf)
        have ht : fieldText fld p = showNat v := by
          unfold fieldText
          cases fld <;> first | simp [Field.isCoord] at hc; done | (simp only; rw [hv]; rfl)
        simp only [ht]
        have := readU64_numeral (showNat_ok (lt_of_lt_of_le (get_lt fld hv) (width_le fld))) hw hr 0
        simp only [IntNumeral.text, List.nil_append] at this
        rw [this, value_showNat, ofInt_natCast, decVal_showNat])
      (lead := []) (by simp) []
    rw [List.nil_append, List.append_nil, hlen] at hr
    obtain ⟨qs, h1, -, h2⟩ := setField_int (b := b) hu hidx hc rfl hr
    rw [h1]
    have : qs = f.prs := by
      refine setTo_self ?_ h2
      simp only [hitems, List.map_map]
      refine List.map_congr_left ?_
      intro p hpf
      obtain ⟨v, hv⟩ := Option.ne_none_iff_exists'.mp (hget p hpf)
      have ht : fieldText fld p = showNat v := by
        unfold fieldText
        cases fld <;> first | simp [Field.isCoord] at hc; done | (simp only; rw [hv]; rfl)
      simp only [Function.comp_apply, ht]
      rw [decVal_showNat, hv, UInt64.toNat_ofNat', Nat.mod_mod_of_dvd _ (Nat.pow_dvd_pow 2 (by cases fld <;> simp [Field.width])),
        Nat.mod_eq_of_lt (get_lt fld hv)]
    rw [this]
  | true =>
    obtain ⟨coord, hcoord, htext⟩ : ∃ coord : PointRecord → F64, (∀ p, fld.get p = some (coord p).bits.toNat)
        ∧ ∀ p, fieldText fld p = showDouble 16 (coord p) := by
      cases fld with
      | x => exact ⟨(·.x), fun _ => rfl, fun _ => rfl⟩
      | y => exact ⟨(·.y), fun _ => rfl, fun _ => rfl⟩
      | z => exact ⟨(·.z), fun _ => rfl, fun _ => rfl⟩
      | _ => simp [Field.isCoord] at hc
    -- the values, as a function of the words
    have hr : readValues (fun s => s.readDouble F64.zero) f.prs.length { rest := wordsText items } = .ok (f.prs.map coord) := by
      have hr := readValues_all (read := fun s => s.readDouble F64.zero)
        (val := fun w => (TextIn.readDouble { rest := w ++ ['\n'] } F64.zero).1) (items := items) hsep
        (by
          intro i hi ws r hw hr
          obtain ⟨p, hpf, rfl⟩ := List.mem_map.mp hi
          have hd := hp p hpf (coord p) hc (hcoord p)
          have e1 := read_show (P := 16) (by norm_num) hd.1 (shows_of_digits hd) hw hr F64.zero
          have e2 := read_show (P := 16) (by norm_num) hd.1 (shows_of_digits hd) (ws := []) (by simp)
            (r := ['\n']) (by intro c hc; simp at hc; rw [← hc]; decide) F64.zero
          rw [List.nil_append] at e2
          simp only [htext]
          rw [e1, e2])
        (lead := []) (by simp) []
      rw [List.nil_append, List.append_nil, hlen] at hr
      rw [hr]
      congr 1
      simp only [hitems, List.map_map]
      refine List.map_congr_left ?_
      intro p hpf
      have hd := hp p hpf (coord p) hc (hcoord p)
      have e2 := read_show (P := 16) (by norm_num) hd.1 (shows_of_digits hd) (ws := []) (by simp)
        (r := ['\n']) (by intro c hc; simp at hc; rw [← hc]; decide) F64.zero
      rw [List.nil_append] at e2
      simp only [Function.comp_apply, htext]
      rw [e2]
    obtain ⟨qs, h1, -, h2⟩ := setField_coord (b := b) hu hc rfl hr
    rw [h1]
    have : qs = f.prs := by
      refine setTo_self ?_ h2
      simp only [List.map_map]
      refine List.map_congr_left ?_
      intro p _
      exact (hcoord p).symm
    rw [this]

/-- 0.5 has the representation 5e-1. -/
theorem digits_half : Digits 16 ⟨0x3FE0000000000000⟩ := by
  refine ⟨by decide +kernel, 5, -1, by norm_num, Or.inl ?_⟩
  have h : (⟨0x3FE0000000000000⟩ : F64).fv * 2 = (F64.one1074 : Int) := by decide +kernel
  have h' : ((⟨0x3FE0000000000000⟩ : F64).fv : ℝ) * 2 = (F64.one1074 : ℝ) := by
    have := congrArg (fun z : Int => (z : ℝ)) h
    push_cast at this
    exact this
  unfold F64.val
  rw [← h']
  have hne : ((⟨0x3FE0000000000000⟩ : F64).fv : ℝ) ≠ 0 := by
    intro h0
    rw [h0, zero_mul] at h'
    exact F64.one1074_pos'.ne h'
  rw [div_eq_iff (mul_ne_zero hne two_ne_zero)]
  norm_num
  ring

/-- The double written as 0.1 is the one nearest to 1e-1. -/
theorem digits_tenth : Digits 16 ⟨0x3FB999999999999A⟩ := by
  refine ⟨by decide +kernel, 1, -1, by norm_num, Or.inr ⟨not_power_of (L := 1070) (by decide +kernel) (by decide +kernel), ?_⟩⟩
  have h := strictlyNearest_of (M := 0x3FB999999999999A) (m := 1) (k := -1) (by norm_num) (by decide +kernel) (by decide +kernel)
    (by decide +kernel)
  have e : F64.mk' false 0x3FB999999999999A = ⟨0x3FB999999999999A⟩ := by decide +kernel
  rw [e, Nat.cast_one] at h
  rw [Int.cast_one]
  exact h

/-- Two points with the x coordinates 0.5 and 0.1. -/
def tenths : SpocFile :=
  { SpocFile.empty with prs := [{ x := ⟨0x3FE0000000000000⟩, extra := [7] },
      { x := ⟨0x3FB999999999999A⟩, c := 4294967295, extra := [18446744073709551615] }] }

example : Uniform tenths.prs ∧ (∀ n, Field.x = .e n → n < 2 ^ 31) ∧ (∀ p ∈ tenths.prs, Field.x.get p ≠ none) ∧ Printable .x tenths := by
  refine ⟨by simp [Uniform, tenths], by simp, by simp [Field.get], ?_⟩
  intro p hp x _ hx
  simp only [tenths, List.mem_cons, List.not_mem_nil, or_false] at hp
  simp only [Field.get, Option.some.injEq] at hx
  rcases hp with rfl | rfl
  · rw [← bits_inj hx]; exact digits_half
  · rw [← bits_inj hx]; exact digits_tenth

example : Uniform tenths.prs ∧ (∀ n, Field.e 0 = .e n → n < 2 ^ 31) ∧ (∀ p ∈ tenths.prs, (Field.e 0).get p ≠ none) ∧ Printable (.e 0) tenths := by
  refine ⟨by simp [Uniform, tenths], ?_, by simp [tenths, Field.get], fun p _ x hc => by simp [Field.isCoord] at hc⟩
  intro n hn
  simp only [Field.e.injEq] at hn
  omega

theorem consumeFieldName_all (b : Build) (f : Field) (hf : ∀ n, f = .e n → n < 2 ^ 31) :
    consumeFieldName b f.name = .ok (f.name, []) := by
  have hne : f.name.isEmpty = false := by cases f <;> rfl
  have h1 := takeWhile_append_stop (r := []) (name_alnum f) (by simp)
  have h2 := dropWhile_append_stop (r := []) (name_alnum f) (by simp)
  rw [List.append_nil] at h1 h2
  unfold consumeFieldName
  rw [hne, Bool.not_false, cassert_true, Res.ok_bind]
  simp only [h1, h2]
  rw [(c61_field_names_accepted f hf).1]
  rfl

/-- **C47** for the application (partial as above): what `tool --get-field=NAME` prints for an input, saved in a file `fn` and given
to `tool --set-field=NAME --field-filename=fn` with the same input, makes it write the file that it has read. -/
theorem c47_app_partial (b : Build) (zl : Zlib) (files files' : Files) (input s : IStream) (f : SpocFile)
    (hr : Io.readFile b zl input = .ok (f, s)) (hu : Uniform f.prs) (fld : Field) (hidx : ∀ n, fld = .e n → n < 2 ^ 31)
    (hget : ∀ p ∈ f.prs, fld.get p ≠ none) (hp : Printable fld f) (fn : Str) (hfn : fn ≠ []) :
    ∃ t, (main b zl files [("get-field", fld.name)] input = .ok (.text t))
      ∧ (files'.text fn = some t →
        main b zl files' [("set-field", fld.name), ("field-filename", fn)] input = .ok (.file (Io.writeFile b zl f))) := by
  obtain ⟨t, h1, h2⟩ := c47_roundtrip_partial b f hu fld hidx hget hp
  have hfo : Apps.fileOf (Io.readFile b zl input) = .ok f := by rw [hr]; rfl
  have hfe : fn.isEmpty = false := by cases fn <;> simp_all
  refine ⟨t, ?_, ?_⟩
  · have : getArgs [("get-field", fld.name)] {} = .ok { command := { name := "get-field", params := fld.name } } := by rfl
    unfold main
    rw [this]
    simp only [Res.ok_bind, hfo, consumeFieldName_all b fld hidx, h1]
    rfl
  · intro ht
    have : getArgs [("set-field", fld.name), ("field-filename", fn)] {}
        = .ok { command := { name := "set-field", params := fld.name }, fieldFn := fn } := by rfl
    unfold main
    rw [this]
    simp only [Res.ok_bind, hfo]
    rw [if_neg (by simp), if_neg (by simp), if_neg (by simp), if_neg (by simp)]
    have hrun : run b zl files' { command := { name := "set-field", params := fld.name }, fieldFn := fn } f = .ok f := by
      unfold run
      rw [if_neg (by simp), if_neg (by simp), if_neg (by simp), if_pos rfl, hfe, if_neg (by simp)]
      simp only [ht, Res.ok_bind, consumeFieldName_all b fld hidx, h2]
    rw [hrun]
    rfl

/-- One point with the given x coordinate. -/
def pointX (x : F64) : PointRecord := { x := x }

/-- **C47, negation**: 16 digits are not enough for every number.  The sum of 0.1 and 0.2 in double precision is printed as
0.3 and comes back as the double below. -/
theorem c47_lossy (b : Build) :
    getField b { SpocFile.empty with prs := [pointX ⟨0x3FD3333333333334⟩] } ['x'] = .ok ['0', '.', '3', '\n']
    ∧ setField b { SpocFile.empty with prs := [pointX ⟨0x3FD3333333333334⟩] } { rest := ['0', '.', '3', '\n'] } ['x']
      = .ok { SpocFile.empty with prs := [pointX ⟨0x3FD3333333333333⟩] } := by
  cases b <;> exact ⟨by decide +kernel, by decide +kernel⟩

theorem showDouble_not_finite {x : F64} (h : x.isFinite = false) :
    ∃ sg c t, Numeral.IsSign sg ∧ NoNumber c ∧ isE c = false ∧ showDouble 16 x = sg ++ c :: t := by
  have hs : Numeral.IsSign (if x.neg = true then ['-'] else []) := by
    cases x.neg
    · exact Or.inl rfl
    · exact Or.inr (Or.inr rfl)
  have hm : F64.infMag ≤ x.mag := by simpa [F64.isFinite] using h
  by_cases hn : x.isNaN = true
  · refine ⟨_, 'n', ['a', 'n'], hs, by unfold NoNumber; decide, by decide, ?_⟩
    unfold showDouble
    simp only [hn, if_true]
    rfl
  · have hi : x.isInf = true := by
      simp only [F64.isNaN, decide_eq_true_eq, Nat.not_lt] at hn
      simp only [F64.isInf, decide_eq_true_eq]
      omega
    refine ⟨_, 'i', ['n', 'f'], hs, by unfold NoNumber; decide, by decide, ?_⟩
    unfold showDouble
    simp only [hn, hi, if_true]
    rfl

/-- **C47, negation**: if the x coordinate of the first point is infinite or not a number, then importing the exported x
coordinates succeeds, and sets the x coordinate of *every* point to zero. -/
theorem c47_not_finite (b : Build) (f : SpocFile) (hu : Uniform f.prs) (p : PointRecord) (ps : List PointRecord) (hf : f.prs = p :: ps)
    (hx : p.x.isFinite = false) :
    ∃ t, getField b f Field.x.name = .ok t
      ∧ setField b f { rest := t } Field.x.name = .ok { f with prs := f.prs.map (fun q => { q with x := F64.zero }) } := by
  refine ⟨_, getField_eq b f (by simp) (by simp [Field.get]), ?_⟩
  obtain ⟨sg, c, t, h1, h2, h3, h4⟩ := showDouble_not_finite hx
  have hr : readValues (fun s => s.readDouble F64.zero) f.prs.length
      { rest := wordsText (f.prs.map (fun p => (fieldText .x p, ['\n']))) } = .ok (List.replicate f.prs.length F64.zero) := by
    have e : wordsText (f.prs.map (fun p => (fieldText .x p, ['\n'])))
        = [] ++ (sg ++ c :: (t ++ ('\n' :: wordsText (ps.map (fun p => (fieldText .x p, ['\n'])))))) := by
      rw [hf]
      simp [wordsText, fieldText, h4]
    rw [e, hf, List.length_cons, readValues, readDouble_garbage h2 h3 (by simp) h1]
    simp only [Bool.false_eq_true, if_false]
    rw [readValues_failed (readDouble_failed F64.zero) _ rfl rfl]
    rfl
  obtain ⟨qs, h5, -, h6⟩ := setField_coord (b := b) hu (fld := .x) rfl rfl hr
  rw [h5]
  have : qs = f.prs.map (fun q => { q with x := F64.zero }) := by
    clear h5 hr
    generalize hps : f.prs = l at h6
    clear hps hf hu
    induction l generalizing qs with
    | nil => simp only [List.zip_nil_left] at h6; cases h6; rfl
    | cons q l ih =>
      simp only [List.length_cons, List.replicate_succ, List.map_cons, List.zip_cons_cons] at h6
      cases h6 with
      | cons h7 h8 =>
        rw [List.map_cons, ih _ h8, SetTo.unique (q' := _) (setDouble_spec (fld := .x) rfl F64.zero q) h7]
        rfl
  rw [this]

example : (Uniform nanFile.prs ∧ nanFile.prs = { x := F64.nan } :: []) ∧ (F64.nan).isFinite = false :=
  ⟨⟨nanFile_writable.uniform, rfl⟩, by decide⟩

/-! ## C48 -/

theorem forall₂_index {fld : Field} {ps qs : List PointRecord} {vs : List Nat}
    (h : List.Forall₂ (fun pv q => SetTo fld pv.2 pv.1 q) (ps.zip vs) qs) (i : Nat) (p : PointRecord) (v : Nat)
    (hp : ps[i]? = some p) (hv : vs[i]? = some v) : ∃ q, qs[i]? = some q ∧ SetTo fld v p q := by
  have hi := (List.getElem?_eq_some_iff.mp hp).1
  have hz : (ps.zip vs)[i]? = some (p, v) := by
    rw [List.getElem?_zip_eq_some]
    exact ⟨hp, hv⟩
  obtain ⟨hiz, hz'⟩ := List.getElem?_eq_some_iff.mp hz
  have hq : i < qs.length := by rw [← h.length_eq]; exact hiz
  refine ⟨qs[i], List.getElem?_eq_getElem hq, ?_⟩
  have := (List.forall₂_iff_get.mp h).2 i hiz hq
  simp only [List.get_eq_getElem, hz'] at this
  exact this

/-- **C48** for integer fields (partial: what follows the needed numbers is not looked at, so surplus numbers and text are accepted; see also
`c48_not_a_number_accepted` and `c48_last_line_rejected`).  A text of integers separated by white space, at least one for each point, and
white space behind each of them, sets the field of point number `i` to the `i`-th integer (modulo the width of the field, so exactly to
it if it fits), adds missing extra fields with value zero, and changes nothing else. -/
theorem c48_integers_partial (b : Build) (f : SpocFile) (hu : Uniform f.prs) (fld : Field) (hidx : ∀ n, fld = .e n → n < 2 ^ 31)
    (hc : fld.isCoord = false) (lead tail : Str) (hlead : ∀ c ∈ lead, isSpace c = true) (items : List (IntNumeral × Str))
    (hok : ∀ i ∈ items, i.1.Ok ∧ IsSep i.2) (hlen : items.length = f.prs.length) :
    ∃ g, setField b f (numbersText lead (items.map (fun i => (i.1.text, i.2))) tail) fld.name = .ok g
      ∧ SameApart f g ∧ g.prs.length = f.prs.length
      ∧ (∀ (k : Nat) p (n : IntNumeral) (s : Str), f.prs[k]? = some p → items[k]? = some (n, s) →
          ∃ q, g.prs[k]? = some q ∧ SetTo fld (n.value % 2 ^ fld.width).toNat p q)
      ∧ (∀ (k : Nat) p (n : IntNumeral) (s : Str), f.prs[k]? = some p → items[k]? = some (n, s) → 0 ≤ n.value → n.value < 2 ^ fld.width →
          ∃ q, g.prs[k]? = some q ∧ SetTo fld n.value.toNat p q) := by
  have hr := readInts_all hlead hok tail
  rw [hlen] at hr
  obtain ⟨qs, h1, h2, h3⟩ := setField_int (b := b) hu hidx hc rfl hr
  have main : ∀ (k : Nat) p (n : IntNumeral) (s : Str), f.prs[k]? = some p → items[k]? = some (n, s) →
      ∃ q, qs[k]? = some q ∧ SetTo fld (n.value % 2 ^ fld.width).toNat p q := by
    intro k p n s hp hn
    refine forall₂_index h3 k p _ hp ?_
    rw [List.getElem?_map, List.getElem?_map, hn]
    simp only [Option.map_some, Option.some.injEq]
    have e : (UInt64.ofInt n.value).toNat = (n.value % 2 ^ 64).toNat := by
      simp only [UInt64.ofInt]
      rw [UInt64.toNat_ofNat', Nat.mod_eq_of_lt (by omega)]
    have hd : (2 : Int) ^ fld.width ∣ 2 ^ 64 := pow_dvd_pow 2 (by cases fld <;> simp [Field.width])
    have hpos : (0 : Int) < 2 ^ fld.width := by positivity
    apply Int.ofNat_inj.mp
    rw [e, Int.natCast_emod, Int.toNat_of_nonneg (Int.emod_nonneg _ (by norm_num)), Int.toNat_of_nonneg (Int.emod_nonneg _ hpos.ne')]
    push_cast
    exact Int.emod_emod_of_dvd _ hd
  refine ⟨_, h1, ⟨rfl, rfl, rfl, rfl⟩, by simp [h2, hlen], main, ?_⟩
  intro k p n s hp hn h0 hlt
  have := main k p n s hp hn
  rwa [Int.emod_eq_of_lt h0 hlt] at this

/-- The numbers of the example: 65535 and 7, the second one with a plus sign. -/
def exampleInts : List (IntNumeral × Str) := [({ ds := ['6', '5', '5', '3', '5'] }, ['\n']), ({ sg := ['+'], ds := ['7'] }, [' ', '\t'])]

theorem exampleInts_ok : ∀ i ∈ exampleInts, i.1.Ok ∧ IsSep i.2 := by
  intro i hi
  simp only [exampleInts, List.mem_cons, List.not_mem_nil, or_false] at hi
  rcases hi with rfl | rfl
  · exact ⟨⟨Or.inl rfl, by simp, by decide, by decide⟩, by simp, by decide⟩
  · exact ⟨⟨Or.inr (Or.inl rfl), by simp, by decide, by decide⟩, by simp, by decide⟩

example : Uniform exampleFile.prs ∧ (∀ n, Field.e 5 = .e n → n < 2 ^ 31) ∧ (Field.e 5).isCoord = false
    ∧ exampleInts.length = exampleFile.prs.length :=
  ⟨exampleFile_writable.uniform, fun n hn => by simp only [Field.e.injEq] at hn; omega, rfl, rfl⟩

/-- **C48** for coordinates (partial in the same way).  A text of decimal numerals separated by white space, none of which is so large that
it is nearest to infinity, sets the coordinate of point number `i` to a double nearest to the `i`-th number, with its sign, and changes
nothing else. -/
theorem c48_coordinates_partial (b : Build) (f : SpocFile) (hu : Uniform f.prs) (fld : Field) (hc : fld.isCoord = true)
    (lead tail : Str) (hlead : ∀ c ∈ lead, isSpace c = true) (items : List (Numeral × Str))
    (hok : ∀ i ∈ items, i.1.Ok ∧ IsSep i.2 ∧ ∀ y, Nearest y i.1.value → y.isFinite = true) (hlen : items.length = f.prs.length) :
    ∃ g, setField b f (numbersText lead (items.map (fun i => (i.1.text, i.2))) tail) fld.name = .ok g
      ∧ SameApart f g ∧ g.prs.length = f.prs.length
      ∧ ∀ (k : Nat) p (n : Numeral) (s : Str), f.prs[k]? = some p → items[k]? = some (n, s) →
          ∃ q y, g.prs[k]? = some q ∧ Nearest y n.value ∧ y.neg = n.negative ∧ SetTo fld y.bits.toNat p q := by
  have hok' : ∀ i ∈ items, i.1.Ok ∧ IsSep i.2 ∧ (numeralDouble i.1).isInf = false := by
    intro i hi
    obtain ⟨h1, h2, h3⟩ := hok i hi
    exact ⟨h1, h2, F64.isInf_eq_false_of_finite (h3 _ (ofScaled_value i.1))⟩
  have hr := readDoubles_all hlead hok' tail
  rw [hlen] at hr
  obtain ⟨qs, h1, h2, h3⟩ := setField_coord (b := b) hu hc rfl hr
  refine ⟨_, h1, ⟨rfl, rfl, rfl, rfl⟩, by simp [h2, hlen], ?_⟩
  intro k p n s hp hn
  obtain ⟨q, h4, h5⟩ := forall₂_index h3 k p (numeralDouble n).bits.toNat hp (by
    rw [List.getElem?_map, List.getElem?_map, hn]
    rfl)
  exact ⟨q, numeralDouble n, h4, ofScaled_value n, numeralDouble_sign n, h5⟩

/-- The coordinates of the example: 0.25 and -1e3. -/
def exampleReals : List (Numeral × Str) :=
  [({ ip := ['0'], fp := some ['2', '5'] }, ['\n']), ({ sg := ['-'], ip := ['1'], ex := some ('e', [], ['3']) }, [' '])]

/-- A number whose absolute value is at most that of a finite double is not nearest to infinity. -/
theorem nearest_finite {y w : F64} {q : ℝ} (hw : w.isFinite = true) (hq : |q| ≤ w.val) (hy : Nearest y q) : y.isFinite = true := by
  have hwm : w.mag < F64.infMag := by simpa [F64.isFinite] using hw
  have hw0 : 0 ≤ w.val := (abs_nonneg q).trans hq
  by_contra hc
  rw [Bool.not_eq_true] at hc
  have hym : y.mag = F64.infMag := by
    have h1 := F64.isNaN_eq_false.mp hy.1
    have h2 : F64.infMag ≤ y.mag := by simpa [F64.isFinite] using hc
    omega
  have hU := F64.one1074_pos'
  have hwv : |w.val| = (F64.fixMag w.mag : ℝ) / (F64.one1074 : ℝ) := by
    rw [F64.val_eq, abs_mul, abs_of_nonneg (val_nonneg _)]
    cases w.neg <;> simp
  have hyv : |y.val| = (F64.fixMag F64.infMag : ℝ) / (F64.one1074 : ℝ) := by
    rw [F64.val_eq, hym, abs_mul, abs_of_nonneg (val_nonneg _)]
    cases y.neg <;> simp
  have hlt : w.val < |y.val| := by
    rw [← abs_of_nonneg hw0, hwv, hyv]
    exact div_lt_div_of_pos_right (Nat.cast_lt.mpr (F64.fixMag_strictMono hwm)) hU
  obtain ⟨hq1, hq2⟩ := abs_le.mp hq
  -- the finite number with the sign of `y` is nearer
  have key : ∃ z : F64, z.isNaN = false ∧ |z.val - q| < |y.val - q| := by
    have hnan : w.isNaN = false := F64.not_nan_of_finite hw
    rcases abs_cases y.val with ⟨h1, h2⟩ | ⟨h1, h2⟩
    · refine ⟨w, hnan, ?_⟩
      rw [h1] at hlt
      rw [abs_of_nonneg (by linarith), abs_of_nonneg (by linarith)]
      linarith
    · refine ⟨F64.negate w, by rw [F64.isNaN_eq_false, F64.negate_mag]; exact hwm.le, ?_⟩
      rw [h1] at hlt
      rw [F64.negate_val, abs_of_nonpos (by linarith), abs_of_nonpos (by linarith)]
      linarith
  obtain ⟨z, hz1, hz2⟩ := key
  exact absurd (hy.2 z hz1) (not_le.mpr hz2)

theorem exampleReals_ok : ∀ i ∈ exampleReals, i.1.Ok ∧ IsSep i.2 ∧ ∀ y, Nearest y i.1.value → y.isFinite = true := by
  have v1024 : (F64.mk' false 0x4090000000000000).val = 1024 := by
    have h : (F64.mk' false 0x4090000000000000).fv = 1024 * (F64.one1074 : Int) := by decide +kernel
    unfold F64.val
    rw [h]
    push_cast
    rw [mul_div_assoc, div_self F64.one1074_pos'.ne', mul_one]
  have hfin : (F64.mk' false 0x4090000000000000).isFinite = true := by decide +kernel
  intro i hi
  simp only [exampleReals, List.mem_cons, List.not_mem_nil, or_false] at hi
  rcases hi with rfl | rfl
  · refine ⟨⟨Or.inl rfl, by decide, by decide, by decide, by simp⟩, ⟨by simp, by decide⟩, fun y hy => nearest_finite hfin ?_ hy⟩
    have h1 : Numeral.mantissa { ip := ['0'], fp := some ['2', '5'] } = 25 := by decide
    have h2 : Numeral.exponent { ip := ['0'], fp := some ['2', '5'] } = -2 := by decide
    have h3 : Numeral.negative { ip := ['0'], fp := some ['2', '5'] } = false := by decide
    simp only [Numeral.value, h1, h2, h3, v1024]
    norm_num [abs_le]
  · refine ⟨⟨Or.inr (Or.inr rfl), by decide, by decide, by decide, ?_⟩, ⟨by simp, by decide⟩, fun y hy => nearest_finite hfin ?_ hy⟩
    · intro e s d h
      simp only [Option.some.injEq, Prod.mk.injEq] at h
      obtain ⟨rfl, rfl, rfl⟩ := h
      exact ⟨Or.inl rfl, Or.inl rfl, by simp, by decide⟩
    · have h1 : Numeral.mantissa { sg := ['-'], ip := ['1'], ex := some ('e', [], ['3']) } = 1 := by decide
      have h2 : Numeral.exponent { sg := ['-'], ip := ['1'], ex := some ('e', [], ['3']) } = 3 := by decide
      have h3 : Numeral.negative { sg := ['-'], ip := ['1'], ex := some ('e', [], ['3']) } = true := by decide
      simp only [Numeral.value, h1, h2, h3, v1024]
      norm_num [abs_le]

example : Uniform exampleFile.prs ∧ Field.y.isCoord = true ∧ exampleReals.length = exampleFile.prs.length :=
  ⟨exampleFile_writable.uniform, rfl, rfl⟩

/-- The exception that reports missing numbers. -/
def missing {α : Type} : Res α := .throw "Reached end-of-file before reading all field values"

/-- **C48**: a text with fewer numbers than points is rejected, integers in this case: numbers with separators behind them, possibly a
last one without, and nothing else. -/
theorem c48_too_few_integers (b : Build) (f : SpocFile) (hu : Uniform f.prs) (fld : Field) (hidx : ∀ n, fld = .e n → n < 2 ^ 31)
    (hc : fld.isCoord = false) (lead : Str) (hlead : ∀ c ∈ lead, isSpace c = true) (items : List (IntNumeral × Str))
    (hok : ∀ i ∈ items, i.1.Ok ∧ IsSep i.2) (last : Option IntNumeral) (hlast : ∀ n, last = some n → n.Ok)
    (hlen : items.length < f.prs.length) :
    setField b f (numbersText lead (items.map (fun i => (i.1.text, i.2))) ((last.map IntNumeral.text).getD [])) fld.name = missing := by
  refine setField_throw hu hidx rfl (fun h => by rw [hc] at h; simp at h) (fun _ => ?_)
  obtain ⟨lead', h1, h2⟩ := readInts hlead hok ((last.map IntNumeral.text).getD [])
  obtain ⟨k, hk⟩ : ∃ k, f.prs.length = items.length + (k + 1) := ⟨f.prs.length - items.length - 1, by omega⟩
  rw [hk, h2 (k + 1), readValues]
  cases last with
  | none =>
    simp only [Option.map_none, Option.getD_none, List.append_nil]
    rw [readU64_empty 0 h1]
    rfl
  | some n =>
    have := readU64_numeral (hlast n rfl) h1 (r := []) (by intro c hc; simp at hc) 0
    rw [List.append_nil] at this
    simp only [Option.map_some, Option.getD_some]
    rw [this]
    rfl

/-- **C48**: a text with fewer numbers than points is rejected, coordinates in this case. -/
theorem c48_too_few_coordinates (b : Build) (f : SpocFile) (hu : Uniform f.prs) (fld : Field) (hc : fld.isCoord = true)
    (lead : Str) (hlead : ∀ c ∈ lead, isSpace c = true) (items : List (Numeral × Str))
    (hok : ∀ i ∈ items, i.1.Ok ∧ IsSep i.2 ∧ ∀ y, Nearest y i.1.value → y.isFinite = true) (last : Option Numeral)
    (hlast : ∀ n, last = some n → n.Ok) (hlen : items.length < f.prs.length) :
    setField b f (numbersText lead (items.map (fun i => (i.1.text, i.2))) ((last.map Numeral.text).getD [])) fld.name = missing := by
  have hidx : ∀ n, fld = .e n → n < 2 ^ 31 := by rintro n rfl; simp [Field.isCoord] at hc
  refine setField_throw hu hidx rfl (fun _ => ?_) (fun h => by rw [hc] at h; simp at h)
  have hok' : ∀ i ∈ items, i.1.Ok ∧ IsSep i.2 ∧ (numeralDouble i.1).isInf = false := by
    intro i hi
    obtain ⟨h1, h2, h3⟩ := hok i hi
    exact ⟨h1, h2, F64.isInf_eq_false_of_finite (h3 _ (ofScaled_value i.1))⟩
  obtain ⟨lead', h1, h2⟩ := readDoubles hlead hok' ((last.map Numeral.text).getD [])
  obtain ⟨k, hk⟩ : ∃ k, f.prs.length = items.length + (k + 1) := ⟨f.prs.length - items.length - 1, by omega⟩
  rw [hk, h2 (k + 1), readValues]
  cases last with
  | none =>
    simp only [Option.map_none, Option.getD_none, List.append_nil]
    rw [readDouble_empty F64.zero h1]
    rfl
  | some n =>
    have := readDouble_numeral' (hlast n rfl) h1 (r := []) (by intro c hc; simp at hc) F64.zero
    rw [List.append_nil] at this
    simp only [Option.map_some, Option.getD_some]
    rw [this]
    split <;> rfl

example : Uniform exampleFile.prs ∧ Field.c.isCoord = false ∧ (exampleInts.take 1).length < exampleFile.prs.length ∧
    (∀ n, (none : Option IntNumeral) = some n → n.Ok) :=
  ⟨exampleFile_writable.uniform, rfl, by decide, by simp⟩

example : Uniform exampleFile.prs ∧ Field.x.isCoord = true ∧ (exampleReals.take 1).length < exampleFile.prs.length ∧
    (∀ n, (none : Option Numeral) = some n → n.Ok) :=
  ⟨exampleFile_writable.uniform, rfl, by decide, by simp⟩

/-- **C48, negation**: a text with exactly one number for each point is rejected if nothing follows the last number (no end of line at
the end of the file).  This is the case of one integer fewer with a separator behind it, and a last one. -/
theorem c48_last_line_rejected (b : Build) (f : SpocFile) (hu : Uniform f.prs) (fld : Field) (hidx : ∀ n, fld = .e n → n < 2 ^ 31)
    (hc : fld.isCoord = false) (items : List (IntNumeral × Str)) (hok : ∀ i ∈ items, i.1.Ok ∧ IsSep i.2) (n : IntNumeral) (hn : n.Ok)
    (hlen : items.length + 1 = f.prs.length) :
    setField b f (numbersText [] (items.map (fun i => (i.1.text, i.2))) n.text) fld.name = missing := by
  have := c48_too_few_integers b f hu fld hidx hc [] (by simp) items hok (some n) (fun m hm => by
    simp only [Option.some.injEq] at hm; rw [← hm]; exact hn) (by omega)
  exact this

example : (exampleInts.take 1).length + 1 = exampleFile.prs.length ∧ IntNumeral.Ok { ds := ['7'] } :=
  ⟨rfl, Or.inl rfl, by simp, by decide, by decide⟩

/-- **C48, negation**: text that is not a number is not rejected.  From the first word that does not begin like a number on, the
integer field is set to zero. -/
theorem c48_not_a_number_accepted (b : Build) (f : SpocFile) (hu : Uniform f.prs) (fld : Field) (hidx : ∀ n, fld = .e n → n < 2 ^ 31)
    (hc : fld.isCoord = false) (items : List (IntNumeral × Str)) (hok : ∀ i ∈ items, i.1.Ok ∧ IsSep i.2) (c : Char) (t : Str)
    (hnum : isSpace c = false ∧ isDigit c = false ∧ c ≠ '+' ∧ c ≠ '-' ∧ c ≠ '.') (hlen : items.length ≤ f.prs.length) :
    ∃ g, setField b f (numbersText [] (items.map (fun i => (i.1.text, i.2))) (c :: t)) fld.name = .ok g ∧ SameApart f g
      ∧ g.prs.length = f.prs.length
      ∧ ∀ (k : Nat) p, f.prs[k]? = some p → items.length ≤ k → ∃ q, g.prs[k]? = some q ∧ SetTo fld 0 p q := by
  obtain ⟨lead', h1, h2⟩ := readInts (lead := []) (by simp) hok (c :: t)
  obtain ⟨j, hj⟩ : ∃ j, f.prs.length = items.length + j := ⟨f.prs.length - items.length, by omega⟩
  have hr : readValues (fun s => s.readU64 0) f.prs.length (numbersText [] (items.map (fun i => (i.1.text, i.2))) (c :: t))
      = .ok (items.map (fun i => UInt64.ofInt i.1.value) ++ List.replicate j 0) := by
    rw [hj, h2 j]
    cases j with
    | zero => rfl
    | succ j =>
      rw [readValues, readU64_garbage hnum h1]
      simp only [Bool.false_eq_true, if_false]
      rw [readValues_failed (readU64_failed 0) j rfl rfl]
      rfl
  obtain ⟨qs, h3, h4, h5⟩ := setField_int (b := b) hu hidx hc rfl hr
  refine ⟨_, h3, ⟨rfl, rfl, rfl, rfl⟩, by simp [h4]; omega, ?_⟩
  intro k p hp hk
  refine forall₂_index h5 k p 0 hp ?_
  have hkl := (List.getElem?_eq_some_iff.mp hp).1
  rw [List.getElem?_map, List.getElem?_append_right (by simpa using hk), List.getElem?_replicate_of_lt (by simp; omega)]
  simp

example : (isSpace 'u' = false ∧ isDigit 'u' = false ∧ 'u' ≠ '+' ∧ 'u' ≠ '-' ∧ 'u' ≠ '.')
    ∧ (exampleInts.take 1).length ≤ exampleFile.prs.length := by decide

/-- **C48, negation**: integers that do not fit the field are cut off: 65536 as red value becomes 0, and -1 becomes 65535. -/
theorem c48_cut_off (b : Build) :
    setField b { SpocFile.empty with prs := [{ r := 1 }, { r := 2 }] }
        { rest := ['6', '5', '5', '3', '6', '\n', '-', '1', '\n'] } ['r']
      = .ok { SpocFile.empty with prs := [{ r := 0 }, { r := 65535 }] } := by
  cases b <;> decide +kernel

/-- **C48, negation**: more numbers than points are accepted. -/
theorem c48_surplus_accepted (b : Build) :
    setField b { SpocFile.empty with prs := [{ r := 1 }] } { rest := ['5', '\n', '6', '\n'] } ['r']
      = .ok { SpocFile.empty with prs := [{ r := 5 }] } := by
  cases b <;> decide +kernel

end Spoc.Props
