import Verif.Spec.Format
import Verif.Proofs.IoCompressed
import Verif.Spec.Io

/-!
# Lemmas about the file format
-/

namespace Spoc.FormatProofs

open Spec.Format Io

theorem stored_eq (t : DataType) (v : Nat) : stored t v = leBytes t.size v := by
  have h : ∀ k v, (List.range k).map (fun i => UInt8.ofNat (v / 256 ^ i % 256)) = leBytes k v := by
    intro k
    induction k with
    | zero => intro v; rfl
    | succ k ih =>
      intro v
      rw [List.range_succ_eq_map, List.map_cons, List.map_map, leBytes, ← ih]
      congr 1
      · simp only [pow_zero, Nat.div_one]
        apply UInt8.toNat_inj.mp
        simp
      · apply List.map_congr_left
        intro i _
        simp only [Function.comp_apply, Nat.succ_eq_add_one]
        rw [pow_succ', Nat.div_div_eq_div_mul]
  exact h _ _

theorem stored_byte (b : UInt8) : stored .uint8 b.toNat = [b] := by
  rw [stored_eq]
  simp [DataType.size, leBytes]

theorem layout_append (a b : List (DataType × Nat)) : layout (a ++ b) = layout a ++ layout b := by
  unfold layout; rw [List.flatMap_append]

theorem layout_bytes (w : Bytes) : layout (w.map (fun byte => (.uint8, byte.toNat))) = w := by
  unfold layout
  induction w with
  | nil => rfl
  | cons b w ih => rw [List.map_cons, List.flatMap_cons, ih]; simp only [stored_byte]; rfl

theorem header_eq (h : Header) (hs : h.signature = Header.sig) (h1 : h.major = majorVersion) (h2 : h.minor = minorVersion) :
    layout (headerRows h.wkt h.extraFields.toNat h.totalPoints.toNat h.compressed.toNat) = h.bytes := by
  unfold headerRows Header.bytes
  rw [layout_append, layout_append, layout_bytes, hs, h1, h2]
  simp only [layout, List.flatMap_cons, List.flatMap_nil, stored_eq, DataType.size, List.append_assoc, List.append_nil]
  rfl

theorem record_eq (q : PointRecord) : layout (recordRows q) = q.bytes := by
  unfold recordRows
  rw [layout_append]
  have : layout (q.extra.map (fun e => ((.uint64 : DataType), e.toNat))) = q.extraBytes := by
    unfold layout PointRecord.extraBytes
    rw [List.flatMap_map]
    simp only [stored_eq, DataType.size]
  rw [this]
  simp only [layout, List.flatMap_cons, List.flatMap_nil, stored_eq, DataType.size, PointRecord.bytes, PointRecord.fixedBytes,
    List.append_assoc, List.append_nil]

theorem records_eq (prs : List PointRecord) : layout (prs.flatMap recordRows) = prs.flatMap PointRecord.bytes := by
  induction prs with
  | nil => rfl
  | cons q prs ih => rw [List.flatMap_cons, layout_append, ih, record_eq, List.flatMap_cons]

/-- The element type of a data type. -/
def elemOf : DataType → Elem
  | .double => elemDouble
  | .uint32 => elemU32
  | .uint16 => elemU16
  | .uint64 => elemU64
  | .uint8 => { size := 1, isZero := fun v => decide (v = 0) }

theorem elemOf_size (t : DataType) : (elemOf t).size = t.size := by cases t <;> rfl

theorem columnBytes_eq (t : DataType) (x : List Nat) : columnBytes (t, x) = colBytes (elemOf t) x := by
  unfold columnBytes layout colBytes
  rw [List.flatMap_map]
  simp only [stored_eq, elemOf_size]

theorem lt64 (prs : List PointRecord) (g : PointRecord → UInt64) : ∀ v ∈ prs.map (fun q => (g q).toNat), v < 256 ^ 8 := by
  intro v hv
  obtain ⟨q, _, rfl⟩ := List.mem_map.mp hv
  have := (g q).toNat_lt
  simpa using this

theorem lt32 (prs : List PointRecord) (g : PointRecord → UInt32) : ∀ v ∈ prs.map (fun q => (g q).toNat), v < 256 ^ 4 := by
  intro v hv
  obtain ⟨q, _, rfl⟩ := List.mem_map.mp hv
  have := (g q).toNat_lt
  simpa using this

theorem lt16 (prs : List PointRecord) (g : PointRecord → UInt16) : ∀ v ∈ prs.map (fun q => (g q).toNat), v < 256 ^ 2 := by
  intro v hv
  obtain ⟨q, _, rfl⟩ := List.mem_map.mp hv
  have := (g q).toNat_lt
  simpa using this

theorem columns_lt {extra : Nat} {prs : List PointRecord} {t : DataType} {x : List Nat} (h : (t, x) ∈ columns extra prs) :
    ∀ v ∈ x, v < 256 ^ t.size := by
  have h64 : ∀ g : PointRecord → UInt64, ∀ v ∈ prs.map (fun q => (g q).toNat), v < 256 ^ 8 := by
    intro g v hv
    obtain ⟨q, _, rfl⟩ := List.mem_map.mp hv
    have := (g q).toNat_lt
    simpa using this
  have h32 : ∀ g : PointRecord → UInt32, ∀ v ∈ prs.map (fun q => (g q).toNat), v < 256 ^ 4 := by
    intro g v hv
    obtain ⟨q, _, rfl⟩ := List.mem_map.mp hv
    have := (g q).toNat_lt
    simpa using this
  have h16 : ∀ g : PointRecord → UInt16, ∀ v ∈ prs.map (fun q => (g q).toNat), v < 256 ^ 2 := by
    intro g v hv
    obtain ⟨q, _, rfl⟩ := List.mem_map.mp hv
    have := (g q).toNat_lt
    simpa using this
  unfold columns at h
  simp only [List.mem_append, List.mem_cons, List.not_mem_nil, or_false, List.mem_map, Prod.mk.injEq] at h
  rcases h with (h | h | h | h | h | h | h | h | h) | ⟨j, _, h⟩
  · obtain ⟨rfl, rfl⟩ := h; exact h64 (·.x.bits)
  · obtain ⟨rfl, rfl⟩ := h; exact h64 (·.y.bits)
  · obtain ⟨rfl, rfl⟩ := h; exact h64 (·.z.bits)
  · obtain ⟨rfl, rfl⟩ := h; exact h32 (·.c)
  · obtain ⟨rfl, rfl⟩ := h; exact h32 (·.p)
  · obtain ⟨rfl, rfl⟩ := h; exact h16 (·.i)
  · obtain ⟨rfl, rfl⟩ := h; exact h16 (·.r)
  · obtain ⟨rfl, rfl⟩ := h; exact h16 (·.g)
  · obtain ⟨rfl, rfl⟩ := h; exact h16 (·.b)
  · obtain ⟨rfl, rfl⟩ := h; exact h64 (fun q => q.extra.getD j 0)

/-- What the reader makes of a block that stands for a column. -/
def Back (col x : List Nat) : Prop := (x = [] ∧ ∀ v ∈ col, v = 0) ∨ x = col

theorem colGet_back {col x : List Nat} (h : Back col x) {n : Nat} (hn : n < col.length) : colGet x n = .ok col[n] := by
  rcases h with ⟨rfl, h⟩ | rfl
  · rw [h _ (List.getElem_mem hn)]; rfl
  · have hne : x ≠ [] := by rintro rfl; simp at hn
    simp [colGet, List.isEmpty_iff, hne, List.getElem?_eq_getElem hn]

theorem readCompressed_block {z : Zlib} {t : DataType} {x : List Nat} {block : Bytes} (h : StandsFor z (t, x) block)
    (hx : ∀ v ∈ x, v < 256 ^ t.size) (tl : Bytes) :
    ∃ y, readCompressed z (elemOf t) { rest := stored .uint64 block.length ++ (block ++ tl) } x.length = .ok (y, { rest := tl })
      ∧ Back x y := by
  rw [stored_eq]
  unfold readCompressed
  simp only [DataType.size]
  rcases h with ⟨rfl, h0⟩ | ⟨hne, hl, hi⟩
  · have e := IStream.readUInt_append (k := 8) (v := 0) (old := 0) (ys := tl) (h := by norm_num)
    simp only [List.length_nil, List.nil_append, e]
    exact ⟨[], by simp, .inl ⟨rfl, h0⟩⟩
  · have e := IStream.readUInt_append (k := 8) (v := block.length) (old := 0) (ys := block ++ tl) (h := by norm_num at hl ⊢; omega)
    simp only [e]
    simp only [List.length_eq_zero_iff, hne, if_false]
    rw [IStream.readInto_append (by simp)]
    refine ⟨x, ?_, .inr rfl⟩
    have hd : Compression.decompress z block = .ok (colBytes (elemOf t) x) := by
      rw [columnBytes_eq] at hi
      simp only [Compression.decompress, Compression.take_availIn hl, hi]
      rw [Compression.drain_eq Compression.bufferSize_pos _ _ _ (by omega)]
      simp
    simp only [Compression.decompressTo, hd, Res.ok_bind]
    rw [if_neg (by rw [colBytes_length]; simp)]
    simp only [Res.ok_bind]
    have := colOf_colBytes (elemOf t) x [] (by rw [elemOf_size]; exact hx)
    rw [List.append_nil] at this
    rw [this]

theorem readExtraColumns_blocks {z : Zlib} {n : Nat} {cols : List (List Nat)} {bs : List Bytes}
    (h : List.Forall₂ (fun x block => StandsFor z (.uint64, x) block) cols bs) (hn : ∀ x ∈ cols, x.length = n)
    (hx : ∀ x ∈ cols, ∀ v ∈ x, v < 256 ^ 8) (tl : Bytes) :
    ∃ ys, readExtraColumns z n cols.length { rest := blocks bs ++ tl } = .ok (ys, { rest := tl }) ∧ List.Forall₂ Back cols ys := by
  induction h with
  | nil => exact ⟨[], rfl, .nil⟩
  | @cons x b cols bs h _ ih =>
    obtain ⟨ys, e1, e2⟩ := ih (fun x h => hn x (by simp [h])) (fun x h => hx x (by simp [h]))
    obtain ⟨y, d1, d2⟩ := readCompressed_block h (hx x (by simp)) (blocks bs ++ tl)
    rw [hn x (by simp)] at d1
    refine ⟨y :: ys, ?_, .cons d2 e2⟩
    simp only [List.length_cons, readExtraColumns, blocks, List.flatMap_cons, List.append_assoc]
    simp only [blocks] at d1 e1
    simp only [elemOf] at d1
    simp only [d1, Res.ok_bind, e1]

theorem fillRecord_back {extra : Nat} {prs : List PointRecord} (hx : ∀ q ∈ prs, q.extra.length = extra) {cs : Columns}
    (h1 : Back (prs.map (·.x.bits.toNat)) cs.x) (h2 : Back (prs.map (·.y.bits.toNat)) cs.y) (h3 : Back (prs.map (·.z.bits.toNat)) cs.z)
    (h4 : Back (prs.map (·.c.toNat)) cs.c) (h5 : Back (prs.map (·.p.toNat)) cs.p) (h6 : Back (prs.map (·.i.toNat)) cs.i)
    (h7 : Back (prs.map (·.r.toNat)) cs.r) (h8 : Back (prs.map (·.g.toNat)) cs.g) (h9 : Back (prs.map (·.b.toNat)) cs.b)
    (h10 : List.Forall₂ Back (extraCols extra prs) cs.extra) {n : Nat} (hn : n < prs.length) :
    fillRecord cs n = .ok prs[n] := by
  have e : ∀ {g : PointRecord → Nat} {x : List Nat}, Back (prs.map g) x → colGet x n = .ok (g prs[n]) := by
    intro g x h
    rw [colGet_back h (by simpa using hn)]
    simp
  have ee : cs.extra.mapM (fun e => colGet e n) = .ok (prs[n].extra.map (·.toNat)) := by
    have key : ∀ {cols ys : List (List Nat)}, List.Forall₂ Back cols ys → (∀ x ∈ cols, n < x.length) →
        ys.mapM (fun e => colGet e n) = .ok (cols.map (fun x => x.getD n 0)) := by
      intro cols ys h
      induction h with
      | nil => intro _; rfl
      | @cons x y cols ys h _ ih =>
        intro hl
        have hlx := hl x (by simp)
        rw [List.mapM_cons, colGet_back h hlx, ih (fun x h => hl x (by simp [h]))]
        simp [List.getD, List.getElem?_eq_getElem hlx]
    rw [key h10 (by
      intro x hx'
      simp only [extraCols, List.mem_map] at hx'
      obtain ⟨j, _, rfl⟩ := hx'
      simpa using hn)]
    congr 1
    have hl := hx prs[n] (List.getElem_mem hn)
    apply List.ext_getElem
    · simp [extraCols, hl]
    · intro j hj1 hj2
      have hj : j < prs[n].extra.length := by simpa using hj2
      simp [extraCols, List.getD, List.getElem?_eq_getElem hn, List.getElem?_eq_getElem hj]
  unfold fillRecord
  simp only [e h1, e h2, e h3, e h4, e h5, e h6, e h7, e h8, e h9, ee, Res.ok_bind]
  congr 1
  obtain ⟨x, y, z, c, p, i, r, g, b, ex⟩ := prs[n]
  simp only [UInt64.ofNat_toNat, UInt32.ofNat_toNat, UInt16.ofNat_toNat, List.map_map, PointRecord.mk.injEq, true_and]
  conv_rhs => rw [← List.map_id ex]
  exact List.map_congr_left (fun v _ => by simp)

theorem columns_extra (extra : Nat) (prs : List PointRecord) :
    (List.range extra).map (fun j => ((.uint64 : DataType), prs.map (fun q => (q.extra.getD j 0).toNat)))
      = (extraCols extra prs).map (fun x => (.uint64, x)) := by
  unfold extraCols
  rw [List.map_map]
  rfl

theorem col_blocks {z : Zlib} {t : DataType} {x : List Nat} {bl : Bytes} {n : Nat} (h : StandsFor z (t, x) bl)
    (h1 : ∀ v ∈ x, v < 256 ^ t.size) (h2 : x.length = n) (bs : List Bytes) (tl : Bytes) :
    ∃ y, readCompressed z (elemOf t) { rest := blocks (bl :: bs) ++ tl } n = .ok (y, { rest := blocks bs ++ tl }) ∧ Back x y := by
  obtain ⟨y, e1, e2⟩ := readCompressed_block h h1 (blocks bs ++ tl)
  rw [h2] at e1
  refine ⟨y, ?_, e2⟩
  simp only [blocks, List.flatMap_cons, List.append_assoc] at e1 ⊢
  exact e1

theorem readColumns_blocks {z : Zlib} {extra : Nat} {prs : List PointRecord}
    {bs : List Bytes} (hbs : List.Forall₂ (StandsFor z) (columns extra prs) bs) (tl : Bytes) :
    ∃ cs, readColumns z { rest := blocks bs ++ tl } prs.length extra = .ok (cs, { rest := tl })
      ∧ Back (prs.map (·.x.bits.toNat)) cs.x ∧ Back (prs.map (·.y.bits.toNat)) cs.y ∧ Back (prs.map (·.z.bits.toNat)) cs.z
      ∧ Back (prs.map (·.c.toNat)) cs.c ∧ Back (prs.map (·.p.toNat)) cs.p ∧ Back (prs.map (·.i.toNat)) cs.i
      ∧ Back (prs.map (·.r.toNat)) cs.r ∧ Back (prs.map (·.g.toNat)) cs.g ∧ Back (prs.map (·.b.toNat)) cs.b
      ∧ List.Forall₂ Back (extraCols extra prs) cs.extra := by
  unfold columns at hbs
  rw [columns_extra] at hbs
  simp only [List.cons_append, List.nil_append, List.forall₂_cons_left_iff] at hbs
  obtain ⟨b1, _, s1, ⟨b2, _, s2, ⟨b3, _, s3, ⟨b4, _, s4, ⟨b5, _, s5, ⟨b6, _, s6, ⟨b7, _, s7, ⟨b8, _, s8, ⟨b9, bs', s9, hbs, rfl⟩, rfl⟩,
    rfl⟩, rfl⟩, rfl⟩, rfl⟩, rfl⟩, rfl⟩, rfl⟩ := hbs
  rw [List.forall₂_map_left_iff] at hbs
  obtain ⟨y1, e1, k1⟩ := col_blocks (n := prs.length) s1 (lt64 prs (·.x.bits)) (List.length_map _) (b2 :: b3 :: b4 :: b5 :: b6 :: b7 :: b8 :: b9 :: bs') tl
  obtain ⟨y2, e2, k2⟩ := col_blocks (n := prs.length) s2 (lt64 prs (·.y.bits)) (List.length_map _) (b3 :: b4 :: b5 :: b6 :: b7 :: b8 :: b9 :: bs') tl
  obtain ⟨y3, e3, k3⟩ := col_blocks (n := prs.length) s3 (lt64 prs (·.z.bits)) (List.length_map _) (b4 :: b5 :: b6 :: b7 :: b8 :: b9 :: bs') tl
  obtain ⟨y4, e4, k4⟩ := col_blocks (n := prs.length) s4 (lt32 prs (·.c)) (List.length_map _) (b5 :: b6 :: b7 :: b8 :: b9 :: bs') tl
  obtain ⟨y5, e5, k5⟩ := col_blocks (n := prs.length) s5 (lt32 prs (·.p)) (List.length_map _) (b6 :: b7 :: b8 :: b9 :: bs') tl
  obtain ⟨y6, e6, k6⟩ := col_blocks (n := prs.length) s6 (lt16 prs (·.i)) (List.length_map _) (b7 :: b8 :: b9 :: bs') tl
  obtain ⟨y7, e7, k7⟩ := col_blocks (n := prs.length) s7 (lt16 prs (·.r)) (List.length_map _) (b8 :: b9 :: bs') tl
  obtain ⟨y8, e8, k8⟩ := col_blocks (n := prs.length) s8 (lt16 prs (·.g)) (List.length_map _) (b9 :: bs') tl
  obtain ⟨y9, e9, k9⟩ := col_blocks (n := prs.length) s9 (lt16 prs (·.b)) (List.length_map _) (bs') tl
  obtain ⟨ys, e10, k10⟩ := readExtraColumns_blocks (n := prs.length) hbs
    (by intro x hx'; simp only [extraCols, List.mem_map] at hx'; obtain ⟨j, _, rfl⟩ := hx'; exact List.length_map _)
    (by intro x hx'; simp only [extraCols, List.mem_map] at hx'; obtain ⟨j, _, rfl⟩ := hx'; exact lt64 prs (fun q => q.extra.getD j 0)) tl
  have hl : (extraCols extra prs).length = extra := by simp [extraCols]
  rw [hl] at e10
  simp only [elemOf] at e1 e2 e3 e4 e5 e6 e7 e8 e9
  refine ⟨⟨y1, y2, y3, y4, y5, y6, y7, y8, y9, ys⟩, ?_, k1, k2, k3, k4, k5, k6, k7, k8, k9, k10⟩
  unfold readColumns
  simp only [e1, e2, e3, e4, e5, e6, e7, e8, e9, e10, Res.ok_bind]

theorem readCompressedPoints_blocks {z : Zlib} {extra : Nat} {prs : List PointRecord} (hx : ∀ q ∈ prs, q.extra.length = extra)
    {bs : List Bytes} (hbs : List.Forall₂ (StandsFor z) (columns extra prs) bs) (tl : Bytes) :
    readCompressedPoints z { rest := blocks bs ++ tl } prs.length extra = .ok (prs, { rest := tl }) := by
  obtain ⟨cs, h, k1, k2, k3, k4, k5, k6, k7, k8, k9, k10⟩ := readColumns_blocks hbs tl
  unfold readCompressedPoints
  rw [h, Res.ok_bind]
  dsimp only
  have : (List.range prs.length).mapM (fillRecord cs) = .ok ((List.range prs.length).map (fun n => prs.getD n {})) := by
    apply mapM_ok
    intro n hn
    have hn' := List.mem_range.mp hn
    rw [fillRecord_back hx k1 k2 k3 k4 k5 k6 k7 k8 k9 k10 hn']
    simp [List.getD, List.getElem?_eq_getElem hn']
  rw [this, Res.ok_bind]
  congr 2
  apply List.ext_getElem
  · simp
  · intro j h1 h2
    simp [List.getD, List.getElem?_eq_getElem h2]

/-! ## Writing -/

/-- The block that is written for a column. -/
def blockOf (z : Zlib) (col : DataType × List Nat) : Bytes :=
  if allZero (elemOf col.1) col.2 then [] else z.deflate (columnBytes col)

theorem fieldBytes_block {z : Zlib} (t : DataType) (x : List Nat) :
    fieldBytes z (elemOf t) x = Spec.Format.stored .uint64 (blockOf z (t, x)).length ++ blockOf z (t, x) := by
  unfold fieldBytes blockOf
  rw [columnBytes_eq]
  split
  · rw [stored_eq]; rfl
  · rw [stored_eq]; rfl

theorem fieldsBytes_blocks {z : Zlib} (extra : Nat) (prs : List PointRecord) :
    fieldsBytes z extra prs = blocks ((columns extra prs).map (blockOf z)) := by
  have hd := fun x => fieldBytes_block (z := z) .double x
  have h32 := fun x => fieldBytes_block (z := z) .uint32 x
  have h16 := fun x => fieldBytes_block (z := z) .uint16 x
  have h64 := fun x => fieldBytes_block (z := z) .uint64 x
  simp only [elemOf] at hd h32 h16 h64
  have he : (extraCols extra prs).flatMap (fieldBytes z elemU64)
      = blocks (((List.range extra).map (fun j => ((.uint64 : DataType), prs.map (fun q => (q.extra.getD j 0).toNat)))).map (blockOf z)) := by
    unfold extraCols blocks
    rw [List.flatMap_map, List.map_map, List.flatMap_map]
    simp only [h64, Function.comp_apply]
  unfold fieldsBytes columns
  rw [he]
  simp only [hd, h32, h16, List.map_append, List.map_cons, List.map_nil]
  simp only [blocks, List.flatMap_append, List.flatMap_cons, List.flatMap_nil, List.append_assoc, List.append_nil]

end Spoc.FormatProofs
