import Verif.Proofs.Ascii
import Verif.Props.EndToEnd
import Verif.Props.Upsample

/-!
# C96: carrying a field from one file to another, and C76 for upsampling
-/

namespace Spoc.Props

open Spec Text AppUtils Tool Main

/-- `g'` is `g` where point number `k` has in its field `dst` the value that point number `k` of `f` has in its field `src`, modulo the
width of `dst`. -/
def Carried (src dst : Field) (f g g' : SpocFile) : Prop :=
  SameApart g g' ∧ g'.prs.length = g.prs.length
    ∧ ∀ (k : Nat) (p q : PointRecord), f.prs[k]? = some p → g.prs[k]? = some q →
        ∃ v q', src.get p = some v ∧ g'.prs[k]? = some q' ∧ SetTo dst (v % 2 ^ dst.width) q q'

theorem wordsText_append (a b : List (Str × Str)) : wordsText (a ++ b) = wordsText a ++ wordsText b := by
  simp [wordsText]

theorem fieldText_int {fld : Field} (hc : fld.isCoord = false) {p : PointRecord} {v : Nat} (hv : fld.get p = some v) :
    fieldText fld p = showNat v := by
  unfold fieldText
  cases fld <;> first | simp [Field.isCoord] at hc; done | (simp only; rw [hv]; rfl)

/-- From settings of the points to `Carried`. -/
theorem carried_of_settings {src dst : Field} {f g : SpocFile} {qs : List PointRecord} {vs : List Nat}
    (hvs : vs.length = g.prs.length)
    (hv : ∀ (k : Nat) p v, f.prs[k]? = some p → vs[k]? = some v → ∃ u, src.get p = some u ∧ v = u % 2 ^ dst.width)
    (h : List.Forall₂ (fun pv q => SetTo dst pv.2 pv.1 q) (g.prs.zip vs) qs) :
    Carried src dst f g { g with prs := qs } := by
  have hl := h.length_eq
  rw [List.length_zip, hvs, Nat.min_self] at hl
  refine ⟨⟨rfl, rfl, rfl, rfl⟩, hl.symm, ?_⟩
  intro k p q hp hq
  have hk : k < g.prs.length := (List.getElem?_eq_some_iff.mp hq).1
  obtain ⟨u, h1, h2⟩ := hv k p vs[k] hp (List.getElem?_eq_getElem (by omega))
  have h3 : SetTo dst ((g.prs.zip vs)[k]'(by simp; omega)).2 ((g.prs.zip vs)[k]'(by simp; omega)).1 (qs[k]'(by omega)) :=
    (List.forall₂_iff_get.mp h).2 k (by simp; omega) (by omega)
  rw [List.getElem_zip] at h3
  refine ⟨u, qs[k]'(by omega), h1, List.getElem?_eq_getElem (show k < qs.length by omega), ?_⟩
  rw [← h2]
  have : g.prs[k] = q := (List.getElem?_eq_some_iff.mp hq).2
  rw [← this]
  exact h3

/-- **C96** (partial: coordinates must have at most 16 significant digits, and both fields must be coordinates, or neither).  What
get-field prints for a file is accepted by set-field for any other file with no more points, and carries the values over, point by
point. -/
theorem c96_carry_partial (b : Build) (f g : SpocFile) (hu : Uniform g.prs) (hle : g.prs.length ≤ f.prs.length)
    (src dst : Field) (hsrc : ∀ n, src = .e n → n < 2 ^ 31) (hdst : ∀ n, dst = .e n → n < 2 ^ 31) (hkind : src.isCoord = dst.isCoord)
    (hget : ∀ p ∈ f.prs, src.get p ≠ none) (hp : Printable src f) :
    ∃ t, getField b f src.name = .ok t ∧ Ascii t ∧ ∃ g', setField b g { rest := t } dst.name = .ok g' ∧ Carried src dst f g g' := by
  refine ⟨_, getField_eq b f hsrc hget, ?_, ?_⟩
  · refine ascii_wordsText ?_
    intro i hi
    obtain ⟨p, -, rfl⟩ := List.mem_map.mp hi
    exact ⟨ascii_fieldText src p, show Ascii ['\n'] by decide⟩
  set n := g.prs.length with hn
  obtain ⟨ps, rs, hsplit, hps⟩ : ∃ ps rs, f.prs = ps ++ rs ∧ ps.length = n :=
    ⟨f.prs.take n, f.prs.drop n, (List.take_append_drop n f.prs).symm, by simp; omega⟩
  have hpf : ∀ p ∈ ps, p ∈ f.prs := fun p h => by rw [hsplit]; exact List.mem_append_left _ h
  have hidx : ∀ k p, f.prs[k]? = some p → k < n → ps[k]? = some p := by
    intro k p h hk
    rw [hsplit, List.getElem?_append_left (by omega)] at h
    exact h
  set items := ps.map (fun p => (fieldText src p, ['\n'])) with hitems
  set tail := wordsText (rs.map (fun p => (fieldText src p, ['\n'])))
  have htext : wordsText (f.prs.map (fun p => (fieldText src p, ['\n']))) = wordsText items ++ tail := by
    rw [hsplit, List.map_append, wordsText_append]
  rw [htext]
  have hsep : ∀ i ∈ items, IsSep i.2 := by
    intro i hi
    obtain ⟨p, -, rfl⟩ := List.mem_map.mp hi
    exact newline_sep
  have hlen : items.length = n := by simp [hitems, hps]
  cases hc : src.isCoord with
  | false =>
    have hr := readValues_all (read := fun s => s.readU64 0) (val := fun w => UInt64.ofNat (decVal w)) (items := items) hsep
      (by
        intro i hi ws r hw hr
        obtain ⟨p, hpp, rfl⟩ := List.mem_map.mp hi
        obtain ⟨v, hv⟩ := Option.ne_none_iff_exists'.mp (hget p (hpf p hpp))
        simp only [fieldText_int hc hv]
        have := readU64_numeral (showNat_ok (lt_of_lt_of_le (get_lt src hv) (width_le src))) hw hr 0
        simp only [IntNumeral.text, List.nil_append] at this
        rw [this, value_showNat, ofInt_natCast, decVal_showNat])
      (lead := []) (by simp) tail
    rw [List.nil_append, hlen] at hr
    obtain ⟨qs, h1, -, h2⟩ := setField_int (b := b) hu hdst (hkind ▸ hc) rfl hr
    refine ⟨_, h1, carried_of_settings (by simp [hlen, hn]) ?_ h2⟩
    intro k p v hk hv
    have hkn : k < n := by
      have := (List.getElem?_eq_some_iff.mp hv).1
      simpa [hlen] using this
    have hk' := hidx k p hk hkn
    obtain ⟨u, hu'⟩ := Option.ne_none_iff_exists'.mp (hget p (hpf p (List.mem_of_getElem? hk')))
    refine ⟨u, hu', ?_⟩
    simp only [hitems, List.map_map, List.getElem?_map, hk', Option.map_some, Option.some.injEq, Function.comp_apply,
      fieldText_int hc hu'] at hv
    rw [← hv, decVal_showNat, UInt64.toNat_ofNat', Nat.mod_mod_of_dvd _ (Nat.pow_dvd_pow 2 (by cases dst <;> simp [Field.width]))]
  | true =>
    obtain ⟨coord, hcoord, htext⟩ : ∃ coord : PointRecord → F64, (∀ p, src.get p = some (coord p).bits.toNat)
        ∧ ∀ p, fieldText src p = showDouble 16 (coord p) := by
      cases src with
      | x => exact ⟨(·.x), fun _ => rfl, fun _ => rfl⟩
      | y => exact ⟨(·.y), fun _ => rfl, fun _ => rfl⟩
      | z => exact ⟨(·.z), fun _ => rfl, fun _ => rfl⟩
      | _ => simp [Field.isCoord] at hc
    have hr : readValues (fun s => s.readDouble F64.zero) n { rest := wordsText items ++ tail } = .ok (ps.map coord) := by
      have hr := readValues_all (read := fun s => s.readDouble F64.zero)
        (val := fun w => (TextIn.readDouble { rest := w ++ ['\n'] } F64.zero).1) (items := items) hsep
        (by
          intro i hi ws r hw hr
          obtain ⟨p, hpp, rfl⟩ := List.mem_map.mp hi
          have hd := hp p (hpf p hpp) (coord p) hc (hcoord p)
          have e1 := read_show (P := 16) (by norm_num) hd.1 (shows_of_digits hd) hw hr F64.zero
          have e2 := read_show (P := 16) (by norm_num) hd.1 (shows_of_digits hd) (ws := []) (by simp)
            (r := ['\n']) (by intro c hc; simp at hc; rw [← hc]; decide) F64.zero
          rw [List.nil_append] at e2
          simp only [htext]
          rw [e1, e2])
        (lead := []) (by simp) tail
      rw [List.nil_append, hlen] at hr
      rw [hr]
      congr 1
      simp only [hitems, List.map_map]
      refine List.map_congr_left ?_
      intro p hpp
      have hd := hp p (hpf p hpp) (coord p) hc (hcoord p)
      have e2 := read_show (P := 16) (by norm_num) hd.1 (shows_of_digits hd) (ws := []) (by simp)
        (r := ['\n']) (by intro c hc; simp at hc; rw [← hc]; decide) F64.zero
      rw [List.nil_append] at e2
      simp only [Function.comp_apply, htext]
      rw [e2]
    have hcd : dst.isCoord = true := hkind ▸ hc
    obtain ⟨qs, h1, -, h2⟩ := setField_coord (b := b) hu hcd rfl hr
    refine ⟨_, h1, carried_of_settings (by simp [hps, hn]) ?_ h2⟩
    intro k p v hk hv
    have hkn : k < n := by
      have := (List.getElem?_eq_some_iff.mp hv).1
      simpa [hps] using this
    have hk' := hidx k p hk hkn
    refine ⟨_, hcoord p, ?_⟩
    simp only [List.map_map, List.getElem?_map, hk', Option.map_some, Option.some.injEq, Function.comp_apply] at hv
    have hw : dst.width = 64 := by cases dst <;> simp_all [Field.isCoord, Field.width]
    rw [← hv, hw, Nat.mod_eq_of_lt (coord p).bits.toNat_lt]

/-- The text of a field is printed to the standard output. -/
theorem tool_prints (p : Params) (w : World) (argv : List Str) (i : Str) (src : Field) (hsrc : ∀ n, src = .e n → n < 2 ^ 31)
    (hopt : Cmd.tool.options argv = [("get-field", src.name)]) (hops : Cmd.tool.operands argv = [i]) (hi : i ≠ []) (f : SpocFile)
    (hf : HasCloud p w.fs i f) {t : Str} (ht : getField p.build f src.name = .ok t) :
    Name.tool.run p argv w = ⟨w.fs, Main.bytes t, .ok 0⟩ := by
  obtain ⟨s, s', h1, h2⟩ := inputStream_cloud hi hf
  have ha : getArgs [("get-field", src.name)] {} = .ok { command := { name := "get-field", params := src.name } } := by rfl
  have hfo : Apps.fileOf (Io.readFile p.build p.zlib s) = .ok f := by rw [h2]; rfl
  simp only [Name.run, Main.tool, toolArgs, withOperands, hopt, hops, ha, Cmd.inOut, Res.ok_bind, Bool.false_eq_true, if_false, h1, hfo,
    consumeFieldName_all p.build src hsrc, ht]
  rw [if_neg (by decide), if_pos trivial]

/-- A file that is set in a field can be stored. -/
theorem carried_survives {z : Zlib} {src dst : Field} {f g g' : SpocFile} (hg : Writable g) (hu : g.compressed = false)
    (hx : ∀ q ∈ g.prs, q.extra.length ≤ 123) (hd : dst.needs ≤ 123) (hle : g.prs.length ≤ f.prs.length) (h : Carried src dst f g g') :
    Survives z g' := by
  obtain ⟨⟨h1, h2, h3, h4⟩, h5, h6⟩ := h
  have key : ∀ q' ∈ g'.prs, ∃ q ∈ g.prs, q'.extra.length = max q.extra.length dst.needs := by
    intro q' hq'
    obtain ⟨k, hk, rfl⟩ := List.mem_iff_getElem.mp hq'
    obtain ⟨v, q2, -, e2, e3⟩ := h6 k _ _ (List.getElem?_eq_getElem (show k < f.prs.length by omega))
      (List.getElem?_eq_getElem (show k < g.prs.length by omega))
    rw [List.getElem?_eq_getElem hk, Option.some.injEq] at e2
    exact ⟨_, List.getElem_mem (show k < g.prs.length by omega), by rw [e2]; exact e3.size⟩
  refine ⟨⟨h1.trans hg.major, h2.trans hg.minor, by rw [h3]; exact hg.wkt, ?_, ?_, by rw [h5]; exact hg.count⟩, ?_, ?_⟩
  · intro a ha c hc
    obtain ⟨a', ha', ea⟩ := key a ha
    obtain ⟨c', hc', ec⟩ := key c hc
    rw [ea, ec, hg.uniform a' ha' c' hc']
  · intro a ha
    obtain ⟨a', ha', ea⟩ := key a ha
    have := hx a' ha'
    omega
  · intro _ a ha
    obtain ⟨a', ha', ea⟩ := key a ha
    have := hx a' ha'
    omega
  · intro hc
    rw [h4, hu] at hc
    simp at hc

/-- **C96** with the files (partial as above, and the second file is not compressed): `tool --get-field=A i > n`, and after it, in a
world where `n` holds what was printed, `tool --set-field=B --field-filename=n j o`, leaves in `o` the cloud of `j` with the field `A`
of the cloud of `i` as field `B`. -/
theorem c96_files_partial (p : Params) (hz : p.zlib.Correct) (w w' : World) (argv argv' : List Str) (i n j o : Str) (src dst : Field)
    (hsrc : ∀ k, src = .e k → k < 2 ^ 31) (hdst : dst.needs ≤ 123) (hkind : src.isCoord = dst.isCoord)
    (hopt : Cmd.tool.options argv = [("get-field", src.name)]) (hops : Cmd.tool.operands argv = [i])
    (hopt' : Cmd.tool.options argv' = [("set-field", dst.name), ("field-filename", n)]) (hops' : Cmd.tool.operands argv' = [j, o])
    (hi : i ≠ []) (hn : n ≠ []) (hj : j ≠ []) (ho : o ≠ []) (hco : CanReplace w' o)
    (f g : SpocFile) (hf : HasCloud p w.fs i f) (hg : HasCloud p w'.fs j g) (hle : g.prs.length ≤ f.prs.length)
    (hget : ∀ q ∈ f.prs, src.get q ≠ none) (hp : Printable src f) (hu : g.compressed = false) (hx : ∀ q ∈ g.prs, q.extra.length ≤ 123)
    (hsaved : ∃ x, w'.fs n = some x ∧ x.readable = true ∧ x.content = (Name.tool.run p argv w).out) :
    (Name.tool.run p argv w).res = .ok 0 ∧ (Name.tool.run p argv w).fs = w.fs
      ∧ ∃ g', Carried src dst f g g' ∧ Makes .tool p w' argv' o g' := by
  have hd31 : ∀ k, dst = .e k → k < 2 ^ 31 := by
    rintro k rfl
    simp only [Field.needs] at hdst
    omega
  obtain ⟨s, s', h1, h2⟩ := inputStream_cloud hj hg
  have hw := readable_writable h2
  obtain ⟨t, ht, hat, g', hset, hcar⟩ := c96_carry_partial p.build f g hw.uniform hle src dst hsrc hd31 hkind hget hp
  have hrun := tool_prints p w argv i src hsrc hopt hops hi f hf ht
  rw [hrun] at hsaved ⊢
  refine ⟨rfl, rfl, g', hcar, ?_⟩
  refine outputStream_cloud hz ho hco (carried_survives hw hu hx hdst hle hcar) ?_
  have ha : getArgs [("set-field", dst.name), ("field-filename", n)] {}
      = .ok { command := { name := "set-field", params := dst.name }, fieldFn := n } := by rfl
  have hfo : Apps.fileOf (Io.readFile p.build p.zlib s) = .ok g := by rw [h2]; rfl
  have hfe : n.isEmpty = false := by simpa using hn
  have hfile : (toolFiles w'.fs).text n = some t := by
    obtain ⟨x, e1, e2, e3⟩ := hsaved
    simp only [toolFiles, openRead, e1, e2, if_true, Option.map_some, e3]
    rw [chars_bytes hat]
  have hr : Tool.run p.build p.zlib (toolFiles w'.fs) { command := { name := "set-field", params := dst.name }, fieldFn := n } g = .ok g' := by
    unfold Tool.run
    rw [if_neg (by simp), if_neg (by simp), if_neg (by simp), if_pos rfl, hfe, if_neg (by simp)]
    simp only [hfile, Res.ok_bind, consumeFieldName_all p.build dst hd31, hset]
  simp only [Name.run, Main.tool, toolArgs, withOperands, hopt', hops', ha, Cmd.inOut, Res.ok_bind, Bool.false_eq_true, if_false,
    readThenWrite, h1, hfo, hr]
  rw [if_neg (by decide), if_neg (by decide)]

/-- **C76**, tool upsample-classifications, with the result of the function `upsample_classifications`. -/
theorem c76_upsample_run (p : Params) (hz : p.zlib.Correct) (w : World) (argv : List Str) (i h t o : Str)
    (hopt : Cmd.tool.options argv = [("upsample-classifications", h), ("resolution", t)]) (hops : Cmd.tool.operands argv = [i, o])
    (hi : i ≠ []) (ho : o ≠ []) (hc : CanReplace w o) (l f : SpocFile) (hl : HasCloud p w.fs i l) (hf : HasCloud p w.fs h f)
    (hs : Survives p.zlib f) (hr : F64.gt (atof t) F64.zero = true) (vh vl : List VoxelIndex)
    (hvh : Voxel.getIndexes f.prs (atof t) = .ok vh) (hvl : Voxel.getIndexesIn l.prs (Extent.ofPoints f.prs) (atof t) = .ok vl) :
    ∃ g m, Tool.upsample p.build l f (atof t) = .ok (g, m) ∧ Survives p.zlib g ∧ Makes .tool p w argv o g ∧ SameApart f g
      ∧ g.prs.length = f.prs.length ∧ ∀ (j : Nat) (q : PointRecord) (v : VoxelIndex), f.prs[j]? = some q → vh[j]? = some v →
          ∃ q', g.prs[j]? = some q' ∧ SameExcept [.c] q q' ∧ Transferred l.prs vl v q q' := by
  obtain ⟨x, s, hx, hxr, hxl⟩ := hl
  obtain ⟨sh, s', h1, h2⟩ := hasCloud_open hf
  have hul := (readable_writable hxl).uniform
  obtain ⟨g, m, h3, h4, h5, h6⟩ := c52_upsample p.build l f hul hs.1.uniform (atof t) hr vh vl hvh hvl
  have hlen : vh.length = f.prs.length := mapM_length hvh
  have hs' : Survives p.zlib g := by
    have key : ∀ k (hk : k < g.prs.length), ∃ q ∈ f.prs, f.prs[k]? = some q ∧ SameExcept [.c] q g.prs[k] := by
      intro k hk
      obtain ⟨q', e1, e2, -⟩ := h6 k _ _ (List.getElem?_eq_getElem (show k < f.prs.length by omega))
        (List.getElem?_eq_getElem (show k < vh.length by omega))
      rw [List.getElem?_eq_getElem hk, Option.some.injEq] at e1
      exact ⟨_, List.getElem_mem _, List.getElem?_eq_getElem (show k < f.prs.length by omega), by rw [e1]; exact e2⟩
    have key2 : ∀ q' ∈ g.prs, ∃ q ∈ f.prs, SameExcept [.c] q q' := by
      intro q' hq'
      obtain ⟨k, hk, rfl⟩ := List.mem_iff_getElem.mp hq'
      obtain ⟨q, hq, -, e⟩ := key k hk
      exact ⟨q, hq, e⟩
    have key3 : ∀ q ∈ f.prs, ∃ q' ∈ g.prs, SameExcept [.c] q q' := by
      intro q hq
      obtain ⟨k, hk, rfl⟩ := List.mem_iff_getElem.mp hq
      obtain ⟨q2, -, e1, e2⟩ := key k (by omega)
      rw [List.getElem?_eq_getElem hk, Option.some.injEq] at e1
      subst e1
      exact ⟨_, List.getElem_mem _, e2⟩
    obtain ⟨e1, e2, e3, e4⟩ := h4
    refine ⟨⟨e1.trans hs.1.major, e2.trans hs.1.minor, by rw [e3]; exact hs.1.wkt, ?_, ?_, by rw [h5]; exact hs.1.count⟩, ?_, ?_⟩
    · intro a ha c hc
      obtain ⟨a', ha', ea⟩ := key2 a ha
      obtain ⟨c', hc', ec⟩ := key2 c hc
      rw [ea.1, ec.1, hs.1.uniform a' ha' c' hc']
    · intro a ha
      obtain ⟨a', ha', ea⟩ := key2 a ha
      rw [ea.1]
      exact hs.1.extra a' ha'
    · intro hu a ha
      obtain ⟨a', ha', ea⟩ := key2 a ha
      rw [ea.1]
      exact hs.2.1 (by rw [← e4]; exact hu) a' ha'
    · intro hu
      obtain ⟨e5, e6⟩ := hs.2.2 (by rw [← e4]; exact hu)
      refine ⟨by rw [h5]; exact e5, ?_⟩
      have hax : ∀ {q q' : PointRecord}, SameExcept [.c] q q' → q'.x = q.x ∧ q'.y = q.y ∧ q'.z = q.z := by
        intro q q' e
        have hx := e.2 .x (by simp)
        have hy := e.2 .y (by simp)
        have hz := e.2 .z (by simp)
        simp only [Field.get, Option.some.injEq] at hx hy hz
        exact ⟨bits_inj hx, bits_inj hy, bits_inj hz⟩
      rintro axis ha hz0 q' hq'
      have hsame : ∀ {q q' : PointRecord}, SameExcept [.c] q q' → axis q' = axis q := by
        intro q q' e
        obtain ⟨ex, ey, ez⟩ := hax e
        rcases ha with rfl | rfl | rfl
        · exact ex
        · exact ey
        · exact ez
      obtain ⟨q, hq, e⟩ := key2 q' hq'
      rw [hsame e]
      refine e6 axis ha ?_ q hq
      intro q2 hq2
      obtain ⟨q3, hq3, e7⟩ := key3 q2 hq2
      rw [← hsame e7]
      exact hz0 q3 hq3
  refine ⟨g, m, h3, hs', outputStream_cloud hz ho hc hs' ?_, h4, h5, h6⟩
  have ha : getArgs [("upsample-classifications", h), ("resolution", t)] {}
      = .ok { command := { name := "upsample-classifications", params := h }, resolution := atof t } := by rfl
  have hin : inputStream w i = .ok { rest := x.content } := by simp [inputStream, hi, openRead, hx, hxr]
  have hfo : Apps.fileOf (Io.readFile p.build p.zlib { rest := x.content }) = .ok l := by rw [hxl]; rfl
  have hfo' : Apps.fileOf (Io.readFile p.build p.zlib sh) = .ok f := by rw [h2]; rfl
  have hle : F64.le (atof t) F64.zero = false := by
    unfold F64.gt F64.lt at hr
    unfold F64.le
    rw [Bool.and_eq_true, Bool.and_eq_true, Bool.not_eq_true', Bool.not_eq_true', decide_eq_true_eq] at hr
    rw [hr.1.2, hr.1.1]
    simpa using hr.2
  have hrun : Tool.run p.build p.zlib (toolFiles w.fs)
      { command := { name := "upsample-classifications", params := h }, resolution := atof t } l = .ok g := by
    unfold Tool.run
    rw [if_neg (by simp), if_neg (by simp), if_neg (by simp), if_neg (by simp), if_neg (by simp), if_neg (by simp), if_pos rfl]
    simp only [hle, Bool.false_eq_true, if_false, show (toolFiles w.fs).spoc h = some sh from h1, hfo', Res.ok_bind, h3]
  simp only [Name.run, Main.tool, toolArgs, withOperands, hopt, hops, ha, Cmd.inOut, Res.ok_bind, Bool.false_eq_true, if_false,
    readThenWrite, hin, hfo, hrun]
  rw [if_neg (by decide), if_neg (by decide)]

/-- **C76**, tool upsample-classifications: with the voxel indexes defined (C52), the output holds the high-resolution cloud, with the
classes of the low-resolution one. -/
theorem c76_upsample (p : Params) (hz : p.zlib.Correct) (w : World) (argv : List Str) (i h t o : Str)
    (hopt : Cmd.tool.options argv = [("upsample-classifications", h), ("resolution", t)]) (hops : Cmd.tool.operands argv = [i, o])
    (hi : i ≠ []) (ho : o ≠ []) (hc : CanReplace w o) (l f : SpocFile) (hl : HasCloud p w.fs i l) (hf : HasCloud p w.fs h f)
    (hs : Survives p.zlib f) (hr : F64.gt (atof t) F64.zero = true) (vh vl : List VoxelIndex)
    (hvh : Voxel.getIndexes f.prs (atof t) = .ok vh) (hvl : Voxel.getIndexesIn l.prs (Extent.ofPoints f.prs) (atof t) = .ok vl) :
    ∃ g, Makes .tool p w argv o g ∧ SameApart f g ∧ g.prs.length = f.prs.length
      ∧ ∀ (j : Nat) (q : PointRecord) (v : VoxelIndex), f.prs[j]? = some q → vh[j]? = some v →
          ∃ q', g.prs[j]? = some q' ∧ SameExcept [.c] q q' ∧ Transferred l.prs vl v q q' := by
  obtain ⟨g, m, -, -, h1, h2, h3, h4⟩ := c76_upsample_run p hz w argv i h t o hopt hops hi ho hc l f hl hf hs hr vh vl hvh hvl
  exact ⟨g, h1, h2, h3, h4⟩

/-! ## The hypotheses can be met -/

/-- The disk of the examples of C76 with a file `n` that holds three lines. -/
def diskWithText : World :=
  { exampleDisk with fs := exampleDisk.fs.set ['n'] { content := [48, 10, 48, 10, 48, 10], readable := true, writable := true } }

/-- The field c of the cloud in `a` becomes the field i of the cloud in `d`. -/
example : ∃ g', Carried .c .i cloudA cloudA g' ∧
    Makes .tool exampleParams diskWithText ["--set-field=i".toList, "-fn".toList, ['d'], ['o']] ['o'] g' := by
  refine (c96_files_partial exampleParams toyZlib_correct exampleDisk diskWithText ["--get-field=c".toList, ['a']]
    ["--set-field=i".toList, "-fn".toList, ['d'], ['o']] ['a'] ['n'] ['d'] ['o'] .c .i (by simp) (by decide) rfl (by decide +kernel)
    (by decide +kernel) (by decide +kernel) (by decide +kernel) (by decide) (by decide) (by decide) (by decide) (by unfold CanReplace; rfl) cloudA cloudA
    cloudA_on_disk.1 cloudA_on_disk.2 le_rfl (by decide) (by intro p _ x h; simp [Field.isCoord] at h) rfl (by decide) ⟨_, rfl, rfl, ?_⟩).2.2
  decide +kernel

/-- Classes are transferred from the cloud in `a` to the cloud in `d`. -/
example : ∃ g, Makes .tool exampleParams exampleDisk ["--upsample-classifications=d".toList, "--resolution=10".toList, ['a'], ['o']] ['o'] g := by
  have h1 : (Voxel.getIndexes cloudA.prs (atof ['1', '0'])).isOk = true := by decide +kernel
  have h2 : (Voxel.getIndexesIn cloudA.prs (Extent.ofPoints cloudA.prs) (atof ['1', '0'])).isOk = true := by decide +kernel
  obtain ⟨vh, hvh⟩ : ∃ v, Voxel.getIndexes cloudA.prs (atof ['1', '0']) = .ok v := by
    revert h1
    cases Voxel.getIndexes cloudA.prs (atof ['1', '0']) <;> simp [Res.isOk]
  obtain ⟨vl, hvl⟩ : ∃ v, Voxel.getIndexesIn cloudA.prs (Extent.ofPoints cloudA.prs) (atof ['1', '0']) = .ok v := by
    revert h2
    cases Voxel.getIndexesIn cloudA.prs (Extent.ofPoints cloudA.prs) (atof ['1', '0']) <;> simp [Res.isOk]
  obtain ⟨g, h, -⟩ := c76_upsample exampleParams toyZlib_correct exampleDisk
    ["--upsample-classifications=d".toList, "--resolution=10".toList, ['a'], ['o']] ['a'] ['d'] ['1', '0'] ['o'] (by decide +kernel) (by decide +kernel)
    (by decide) (by decide) rfl cloudA cloudA cloudA_on_disk.1 cloudA_on_disk.2 cloudA_survives (by decide +kernel) vh vl hvh hvl
  exact ⟨g, h⟩

end Spoc.Props
