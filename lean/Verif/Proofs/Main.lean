import Verif.Props.Cmd
import Verif.Props.Filter
import Verif.Props.Io
import Verif.Proofs.Upsample

/-!
# Lemmas about the applications on a file system
-/

namespace Spoc.Main

open Io Spec

/-- A file that can be written. -/
def Ready (f : SpocFile) : Prop := f.isValid = true ∧ f.wkt.length ≤ 65535

theorem compress_ok (z : Zlib) (input : Bytes) : ∃ c, Compression.compress z input = .ok c := by
  unfold Compression.compress
  dsimp only
  exact ⟨_, Compression.drain_eq Compression.bufferSize_pos _ _ _ (by omega)⟩

theorem compressField_ok (z : Zlib) (t : Elem) (x : List Nat) : ∃ c, compressField z t x = .ok c := by
  unfold compressField
  split
  · exact ⟨_, rfl⟩
  · exact compress_ok z _

theorem writeCompressed_ok (x : Bytes) : (writeCompressed x).res = .ok () := by
  unfold writeCompressed
  split <;> rfl

theorem bind_res_ok {α : Type} {o : Out Unit} {k : Unit → Out α} (h : o.res = .ok ()) : (o >>= k).res = (k ()).res := by
  obtain ⟨bs, r⟩ := o
  simp only at h
  subst h
  rfl

theorem writeFields_ok (l : List Bytes) : (writeFields l).res = .ok () := by
  induction l with
  | nil => rfl
  | cons x xs ih => rw [writeFields, bind_res_ok (writeCompressed_ok x), ih]

theorem writeRecords_ok (l : List PointRecord) : (writeRecords l).res = .ok () := by
  rw [writeRecords_eq]

theorem mapM_some {α β : Type} (f : α → Res β) (l : List α) (h : ∀ a ∈ l, ∃ c, f a = .ok c) : ∃ cs, l.mapM f = .ok cs := by
  obtain ⟨cs, h1, _⟩ := mapM_exists f (fun _ => True) l (fun a ha => by
    obtain ⟨c, hc⟩ := h a ha
    exact ⟨c, hc, trivial⟩)
  exact ⟨cs, h1⟩

theorem writeFileCompressed_ok (b : Build) (z : Zlib) {f : SpocFile} (hr : Ready f) (hc : f.compressed = true) :
    (writeFileCompressed b z f).res = .ok () := by
  have hrec := (isValid_iff f).mp hr.1
  have he : (List.range f.extraFields).mapM (extraColumn f.prs) = .ok (extraCols f.extraFields f.prs) := by
    apply mapM_ok
    intro j hj
    exact extraColumn_eq hrec (by simpa using hj)
  obtain ⟨c0, h0⟩ := compressField_ok z elemDouble (f.prs.map (fun q => q.x.bits.toNat))
  obtain ⟨c1, h1⟩ := compressField_ok z elemDouble (f.prs.map (fun q => q.y.bits.toNat))
  obtain ⟨c2, h2⟩ := compressField_ok z elemDouble (f.prs.map (fun q => q.z.bits.toNat))
  obtain ⟨c3, h3⟩ := compressField_ok z elemU32 (f.prs.map (fun q => q.c.toNat))
  obtain ⟨c4, h4⟩ := compressField_ok z elemU32 (f.prs.map (fun q => q.p.toNat))
  obtain ⟨c5, h5⟩ := compressField_ok z elemU16 (f.prs.map (fun q => q.i.toNat))
  obtain ⟨c6, h6⟩ := compressField_ok z elemU16 (f.prs.map (fun q => q.r.toNat))
  obtain ⟨c7, h7⟩ := compressField_ok z elemU16 (f.prs.map (fun q => q.g.toNat))
  obtain ⟨c8, h8⟩ := compressField_ok z elemU16 (f.prs.map (fun q => q.b.toNat))
  obtain ⟨cs, hcs⟩ := mapM_some (compressField z elemU64) (extraCols f.extraFields f.prs) (fun x _ => compressField_ok z elemU64 x)
  unfold writeFileCompressed
  simp only [hr.1, require_true, Out.lift_ok_bind, hc, Bool.not_true, Bool.false_eq_true, if_false, he, h0, h1, h2, h3, h4, h5, h6, h7,
    h8, hcs, getHeader_eq hr.2]
  rw [bind_res_ok (by rw [hdr_write]), bind_res_ok (writeFields_ok _), writeFields_ok]

theorem writeFileUncompressed_ok (b : Build) {f : SpocFile} (hr : Ready f) (hc : f.compressed = false) :
    (writeFileUncompressed b f).res = .ok () := by
  unfold writeFileUncompressed
  simp only [hr.1, require_true, Out.lift_ok_bind, hc, Bool.false_eq_true, if_false, getHeader_eq hr.2]
  rw [bind_res_ok (by rw [hdr_write]), writeRecords_ok]

theorem writeFile_ok (b : Build) (z : Zlib) {f : SpocFile} (hr : Ready f) : (writeFile b z f).res = .ok () := by
  unfold writeFile
  rw [getHeader_eq hr.2, Out.lift_ok_bind]
  split
  · rename_i h
    exact writeFileCompressed_ok b z hr (by
      by_contra hc
      exact h (by simp [hdr, Bool.not_eq_true _ ▸ hc]))
  · rename_i h
    exact writeFileUncompressed_ok b hr (by
      by_contra hc
      exact h (by simp [hdr, Bool.not_eq_false _ ▸ hc]))

/-- A file that was read can be written. -/
theorem new_ready {h : Header} {s s1 s2 s' : IStream} {c : Bool} {p : List PointRecord} {f : SpocFile} (h1 : Header.read s = .ok (h, s1))
    (hf : (SpocFile.new' h.wkt c p >>= fun f => Res.ok (f, s2)) = .ok (f, s')) : Ready f ∧ f.compressed = c := by
  have hw : h.wkt.length ≤ 0xFFFF := by
    rcases Header.read_general s with ⟨h', s1', e, e2, -⟩ | ⟨e, he⟩
    · rw [h1] at e
      simp only [Res.ok.injEq, Prod.mk.injEq] at e
      rw [e.1]; exact e2
    · rw [h1] at he; simp at he
  unfold SpocFile.new' SpocFile.new at hf
  split at hf
  · simp at hf
  · rename_i hv
    simp only [Res.ok_bind, Res.ok.injEq, Prod.mk.injEq] at hf
    rw [← hf.1]
    exact ⟨⟨by simpa [SpocFile.isValid] using hv, hw⟩, rfl⟩

theorem readUncompressed_ready {b : Build} {s s' : IStream} {f : SpocFile} (h : readFileUncompressed b s = .ok (f, s')) :
    Ready f ∧ f.compressed = false := by
  unfold readFileUncompressed at h
  obtain ⟨⟨hd, s1⟩, h1, h⟩ := Res.bind_eq_ok.mp h
  dsimp only at h
  split at h
  · simp at h
  · obtain ⟨⟨p, s2⟩, _, h⟩ := Res.bind_eq_ok.mp h
    exact new_ready h1 h

theorem readCompressed_ready {z : Zlib} {s s' : IStream} {f : SpocFile} (h : readFileCompressed z s = .ok (f, s')) :
    Ready f ∧ f.compressed = true := by
  unfold readFileCompressed at h
  obtain ⟨⟨hd, s1⟩, h1, h⟩ := Res.bind_eq_ok.mp h
  dsimp only at h
  split at h
  · simp at h
  · obtain ⟨⟨p, s2⟩, _, h⟩ := Res.bind_eq_ok.mp h
    exact new_ready h1 h

theorem readFile_ready {b : Build} {z : Zlib} {s s' : IStream} {f : SpocFile} (h : readFile b z s = .ok (f, s')) : Ready f := by
  unfold readFile at h
  obtain ⟨⟨hd, s1⟩, h1, h⟩ := Res.bind_eq_ok.mp h
  dsimp only at h
  split at h
  · obtain ⟨⟨p, s2⟩, _, h⟩ := Res.bind_eq_ok.mp h
    exact (new_ready h1 h).1
  · obtain ⟨⟨p, s2⟩, _, h⟩ := Res.bind_eq_ok.mp h
    exact (new_ready h1 h).1

theorem fileOf_ok {r : Res (SpocFile × IStream)} {f : SpocFile} (h : Apps.fileOf r = .ok f) : ∃ s, r = .ok (f, s) := by
  unfold Apps.fileOf at h
  obtain ⟨⟨g, s⟩, h1, h⟩ := Res.bind_eq_ok.mp h
  simp only [Res.ok.injEq] at h
  exact ⟨s, by rw [h1, h]⟩

theorem process_ready {b : Build} {sh : Subsampling.Shuffle} (hsh : sh.Lawful) {a : Filter.Args} {f g : SpocFile} (hf : Ready f)
    (h : Filter.process b sh a f = .ok g) : Ready g := by
  have hu := (Props.uniform_iff f).mpr hf.1
  obtain ⟨h1, h2⟩ := Props.process_only hsh hu h
  refine ⟨(Props.uniform_iff g).mp (Props.uniform_subperm hu h2), ?_⟩
  have : g.wkt = f.wkt := congrArg (fun x => x.wkt) h1
  rw [this]
  exact hf.2

theorem require_bind {b : Build} {c : Bool} {α : Type} {k : Unit → Res α} {a : α} (h : (require b c >>= k) = .ok a) : k () = .ok a := by
  obtain ⟨_, _, h⟩ := Res.bind_eq_ok.mp h
  exact h

theorem setPointRecords_ready {f g : SpocFile} {ps : List PointRecord} (hf : f.wkt.length ≤ 65535)
    (h : f.cloneEmpty.setPointRecords ps = .ok g) : Ready g := by
  unfold SpocFile.setPointRecords at h
  split at h
  · simp at h
  · rename_i hv
    rw [← Res.ok.inj h]
    exact ⟨by simpa [SpocFile.isValid] using hv, hf⟩

theorem copy_eq {f g : SpocFile} (h : f.copy = .ok g) : g = f := by
  unfold SpocFile.copy SpocFile.new at h
  split at h
  · simp at h
  · exact (Res.ok.inj h).symm

theorem resize_uniform {ps : List PointRecord} (n : Nat) :
    Uniform (ps.map (fun q => { q with extra := SpocFile.resizeExtra n q.extra })) := by
  have h : ∀ q ∈ ps.map (fun q => ({ q with extra := SpocFile.resizeExtra n q.extra } : PointRecord)), q.extra.length = n := by
    intro q hq
    obtain ⟨p, _, rfl⟩ := List.mem_map.mp hq
    simp only [SpocFile.resizeExtra, List.length_append, List.length_take, List.length_replicate]
    omega
  intro p hp q hq
  rw [h p hp, h q hq]

theorem setPointRecord_ready {b : Build} {f g : SpocFile} {i : Nat} {q : PointRecord} (hf : Ready f)
    (h : f.setPointRecord b i q = .ok g) : Ready g := by
  unfold SpocFile.setPointRecord at h
  replace h := require_bind h
  split at h
  · simp at h
  · rename_i hq
    split at h
    · rename_i hi
      rw [← Res.ok.inj h]
      refine ⟨?_, hf.2⟩
      rw [← Props.uniform_iff]
      have hu := (Props.uniform_iff f).mpr hf.1
      have he : ∀ p ∈ f.prs, p.extra.length = f.extraFields := fun p hp => ((isValid_iff f).mp hf.1) p hp
      intro p hp r hr
      have key : ∀ x ∈ f.prs.set i q, x.extra.length = f.extraFields := by
        intro x hx
        rcases List.mem_or_eq_of_mem_set hx with hx | rfl
        · exact he x hx
        · exact Decidable.not_not.mp hq
      rw [key p hp, key r hr]
    · simp at h

theorem assignClass_ready {b : Build} {c : UInt32} {js : List Nat} {f g : SpocFile} (hf : Ready f)
    (h : Tool.assignClass b c js f = .ok g) : Ready g := by
  induction js generalizing f with
  | nil => rw [← Res.ok.inj h]; exact hf
  | cons j js ih =>
    unfold Tool.assignClass at h
    obtain ⟨_, _, h⟩ := Res.bind_eq_ok.mp h
    obtain ⟨r, _, h⟩ := Res.bind_eq_ok.mp h
    obtain ⟨f', h1, h⟩ := Res.bind_eq_ok.mp h
    exact ih (setPointRecord_ready hf h1) h

theorem upsampleLoop_ready {b : Build} {l : SpocFile} {m : Voxel.Map} {vs : List VoxelIndex} {i k k' : Nat} {f g : SpocFile} (hf : Ready f)
    (h : Tool.upsampleLoop b l m vs i f k = .ok (g, k')) : Ready g := by
  induction vs generalizing i k f with
  | nil =>
    simp only [Tool.upsampleLoop, Res.ok.injEq, Prod.mk.injEq] at h
    rw [← h.1]; exact hf
  | cons v vs ih =>
    unfold Tool.upsampleLoop at h
    split at h
    · exact ih hf h
    · obtain ⟨_, _, h⟩ := Res.bind_eq_ok.mp h
      obtain ⟨p, _, h⟩ := Res.bind_eq_ok.mp h
      obtain ⟨f', h1, h⟩ := Res.bind_eq_ok.mp h
      exact ih (assignClass_ready hf h1) h

theorem run_ready {b : Build} {z : Zlib} {files : Tool.Files} {a : Tool.Args} {f g : SpocFile} (hf : Ready f)
    (h : Tool.run b z files a f = .ok g) : Ready g := by
  unfold Tool.run at h
  split at h
  · exact setPointRecords_ready hf.2 (require_bind h)
  split at h
  · exact setPointRecords_ready hf.2 (require_bind h)
  split at h
  · split at h
    · simp at h
    · split at h
      · simp at h
      · split at h
        · simp at h
        · unfold Tool.resizeExtra at h
          replace h := require_bind h
          replace h := require_bind h
          obtain ⟨g', h1, h⟩ := Res.bind_eq_ok.mp h
          rw [← Res.ok.inj h, copy_eq h1]
          exact ⟨(Props.uniform_iff _).mp (resize_uniform _), hf.2⟩
  split at h
  · split at h
    · simp at h
    · split at h
      · simp at h
      · obtain ⟨⟨name, rest⟩, _, h⟩ := Res.bind_eq_ok.mp h
        unfold Tool.setField at h
        replace h := require_bind h
        replace h := require_bind h
        replace h := require_bind h
        dsimp only at h
        split at h
        · obtain ⟨vs, _, h⟩ := Res.bind_eq_ok.mp h
          obtain ⟨ps, _, h⟩ := Res.bind_eq_ok.mp h
          exact setPointRecords_ready hf.2 h
        · obtain ⟨vs, _, h⟩ := Res.bind_eq_ok.mp h
          obtain ⟨ps, _, h⟩ := Res.bind_eq_ok.mp h
          exact setPointRecords_ready hf.2 h
  split at h
  · exact setPointRecords_ready hf.2 (require_bind h)
  split at h
  · exact setPointRecords_ready hf.2 (require_bind h)
  split at h
  · split at h
    · simp at h
    · split at h
      · simp at h
      · obtain ⟨k, h1, h⟩ := Res.bind_eq_ok.mp h
        obtain ⟨⟨u, n⟩, h2, h⟩ := Res.bind_eq_ok.mp h
        simp only [Res.ok.injEq] at h
        subst h
        obtain ⟨s', h1⟩ := fileOf_ok h1
        have hk := readFile_ready h1
        unfold Tool.upsample at h2
        replace h2 := require_bind h2
        replace h2 := require_bind h2
        replace h2 := require_bind h2
        obtain ⟨k', h3, h2⟩ := Res.bind_eq_ok.mp h2
        obtain ⟨vh, _, h2⟩ := Res.bind_eq_ok.mp h2
        obtain ⟨vl, _, h2⟩ := Res.bind_eq_ok.mp h2
        rw [copy_eq h3] at h2
        exact upsampleLoop_ready hk h2
  · simp at h

end Spoc.Main
