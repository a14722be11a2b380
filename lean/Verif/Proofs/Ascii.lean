import Verif.Base.TextIo
import Verif.Proofs.Tool
import Verif.Model.Main

/-!
# Numbers are printed in ASCII

So that a text that is printed, and read from a file afterwards, is the same text.
-/

namespace Spoc

open Spec Text Tool

namespace Text

/-- All characters are ASCII. -/
def Ascii (s : Str) : Prop := ∀ c ∈ s, c.toNat < 128

instance (s : Str) : Decidable (Ascii s) := by unfold Ascii; infer_instance

theorem ascii_nil : Ascii [] := by simp [Ascii]

theorem Ascii.append {s t : Str} (hs : Ascii s) (ht : Ascii t) : Ascii (s ++ t) := by
  intro c hc
  rcases List.mem_append.mp hc with h | h
  · exact hs c h
  · exact ht c h

theorem Ascii.cons {c : Char} {s : Str} (hc : c.toNat < 128) (hs : Ascii s) : Ascii (c :: s) := by
  intro d hd
  rcases List.mem_cons.mp hd with rfl | h
  · exact hc
  · exact hs d h

theorem Ascii.sub {s t : Str} (hs : Ascii s) (h : ∀ c ∈ t, c ∈ s) : Ascii t := fun c hc => hs c (h c hc)

theorem ascii_showNat (n : Nat) : Ascii (showNat n) := by
  intro c hc
  have h := showNat_digits n c hc
  simp only [isDigit, Bool.and_eq_true, decide_eq_true_eq] at h
  have h2 : c.toNat ≤ '9'.toNat := h.2
  have : '9'.toNat = 57 := rfl
  omega

theorem ascii_stripZeros {s : Str} (hs : Ascii s) : Ascii (stripZeros s) := by
  refine hs.sub ?_
  intro c hc
  have := List.dropWhile_sublist (l := s.reverse) (fun c => decide (c = '0')) |>.subset (List.mem_reverse.mp hc)
  exact List.mem_reverse.mp this

theorem ascii_withFrac {s t : Str} (hs : Ascii s) (ht : Ascii t) : Ascii (withFrac s t) := by
  unfold withFrac
  split
  · exact hs
  · exact hs.append (.cons (by decide) (ascii_stripZeros ht))

theorem ascii_showExp (X : Int) : Ascii (showExp X) := by
  unfold showExp
  refine .cons (by decide) (.cons (by split <;> decide) ?_)
  split
  · exact .cons (by decide) (ascii_showNat _)
  · exact ascii_showNat _

theorem ascii_formatG (P : Nat) {ds : Str} (h : Ascii ds) (X : Int) : Ascii (formatG P ds X) := by
  unfold formatG
  have ht : ∀ n, Ascii (ds.take n) := fun n => h.sub (fun c hc => List.mem_of_mem_take hc)
  have hd : ∀ n, Ascii (ds.drop n) := fun n => h.sub (fun c hc => List.mem_of_mem_drop hc)
  split
  · split
    · refine ascii_withFrac (.cons (by decide) ascii_nil) (.append ?_ h)
      intro c hc
      rw [List.eq_of_mem_replicate hc]
      decide
    · exact ascii_withFrac (ht _) (hd _)
  · exact (ascii_withFrac (ht _) (hd _)).append (ascii_showExp _)

theorem ascii_showDouble (P : Nat) (x : F64) : Ascii (showDouble P x) := by
  unfold showDouble
  have hs : Ascii (if x.neg then ['-'] else []) := by
    split
    · exact .cons (by decide) ascii_nil
    · exact ascii_nil
  generalize (if x.neg then ['-'] else []) = sg at hs
  dsimp only
  split
  · exact hs.append (by decide)
  · split
    · exact hs.append (by decide)
    · split
      · exact hs.append (by decide)
      · exact hs.append (ascii_formatG _ (ascii_showNat _) _)

/-- A text survives being written to a file and read again. -/
theorem chars_bytes {t : Str} (h : Ascii t) : Info.chars (Main.bytes t) = t := by
  unfold Info.chars Main.bytes
  rw [List.map_map]
  conv_rhs => rw [← List.map_id t]
  refine List.map_congr_left ?_
  intro c hc
  have := h c hc
  simp only [Function.comp_apply, id_eq, UInt8.toNat_ofNat']
  rw [Nat.mod_eq_of_lt (by omega), Char.ofNat_toNat]

end Text

namespace Tool

theorem ascii_fieldText (fld : Field) (p : PointRecord) : Ascii (fieldText fld p) := by
  unfold fieldText
  split <;> first | exact ascii_showDouble _ _ | exact ascii_showNat _

theorem ascii_wordsText {items : List (Str × Str)} (h : ∀ i ∈ items, Ascii i.1 ∧ Ascii i.2) : Ascii (wordsText items) := by
  intro c hc
  simp only [wordsText, List.mem_flatten, List.mem_map] at hc
  obtain ⟨l, ⟨i, hi, rfl⟩, hc⟩ := hc
  exact (h i hi).1.append (h i hi).2 c hc

end Tool

end Spoc
