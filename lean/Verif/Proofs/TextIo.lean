import Verif.Base.TextIo
import Verif.Spec.Numeral
import Verif.Proofs.Text
import Verif.Proofs.Decimal

/-!
# Lemmas on formatted input and output
-/

namespace Spoc.Text

open Spec

theorem space_not_digit {c : Char} (h : isSpace c = true) : isDigit c = false := by
  by_contra hd
  have := digit_not_space (Bool.not_eq_false _ ▸ hd)
  rw [this] at h; simp at h

theorem stops_noDigit {r : Str} (h : Stops r) : NoDigit r := fun c hc => space_not_digit (h c hc)

theorem isE_space {c : Char} (h : isSpace c = true) : isE c = false ∧ c ≠ '.' ∧ c ≠ '0' ∧ c ≠ '+' ∧ c ≠ '-' := by
  have : ∀ d : Char, isSpace d = false → c ≠ d := by
    rintro d hd rfl; rw [h] at hd; simp at hd
  refine ⟨?_, this _ (by decide), this _ (by decide), this _ (by decide), this _ (by decide)⟩
  simp [isE, this 'e' (by decide), this 'E' (by decide)]

theorem collectLoop_stop (m d e : Bool) {r : Str} (h : Stops r) : collectLoop m d e r = ([], r) := by
  cases r with
  | nil => simp [collectLoop]
  | cons c r =>
    have hc := h c rfl
    obtain ⟨h1, h2, -, -, -⟩ := isE_space hc
    unfold collectLoop
    rw [if_neg (by simp [space_not_digit hc]), if_neg (fun h => h2 h.1), if_neg (by simp [h1])]

theorem collectLoop_digits (m d e : Bool) (ds r : Str) (h : ∀ c ∈ ds, isDigit c = true) :
    collectLoop m d e (ds ++ r)
      = (ds ++ (collectLoop (m || !ds.isEmpty) d e r).1, (collectLoop (m || !ds.isEmpty) d e r).2) := by
  induction ds generalizing m with
  | nil => simp
  | cons c ds ih =>
    have : collectLoop m d e (c :: (ds ++ r)) = (c :: (collectLoop true d e (ds ++ r)).1, (collectLoop true d e (ds ++ r)).2) := by
      conv_lhs => unfold collectLoop
      rw [if_pos (h c (by simp))]
    rw [List.cons_append, this, ih true (fun c hc => h c (by simp [hc]))]
    simp

theorem collectLoop_point (m : Bool) (r : Str) :
    collectLoop m false false ('.' :: r) = ('.' :: (collectLoop m true false r).1, (collectLoop m true false r).2) := by
  conv_lhs => unfold collectLoop
  rw [if_neg (by decide), if_pos ⟨rfl, rfl, rfl⟩]

theorem collectLoop_exp (d : Bool) {e : Char} {s ds r : Str} (he : e = 'e' ∨ e = 'E') (hs : Numeral.IsSign s) (hd : ds ≠ [])
    (hds : ∀ c ∈ ds, isDigit c = true) (hr : Stops r) :
    collectLoop true d false (e :: (s ++ ds) ++ r) = ('e' :: (s ++ ds), r) := by
  have step : collectLoop true d true (ds ++ r) = (ds, r) := by
    rw [collectLoop_digits _ _ _ _ _ hds, collectLoop_stop _ _ _ hr]; simp
  have hE : isDigit e = false ∧ e ≠ '.' ∧ isE e = true := by rcases he with rfl | rfl <;> decide
  obtain ⟨c, ds', rfl⟩ : ∃ c ds', ds = c :: ds' := by
    cases ds with
    | nil => exact absurd rfl hd
    | cons c ds' => exact ⟨c, ds', rfl⟩
  have hc : isDigit c = true := hds c (by simp)
  have hpm : ¬ (c = '+' ∨ c = '-') := by rintro (rfl | rfl) <;> simp [isDigit] at hc
  rw [List.cons_append]
  conv_lhs => unfold collectLoop
  rw [if_neg (by simp [hE.1]), if_neg (fun h => hE.2.1 h.1), if_pos ⟨hE.2.2, rfl, rfl⟩]
  rcases hs with rfl | rfl | rfl
  · simp only [List.nil_append, List.cons_append] at step ⊢
    rw [if_neg hpm, step]
  · simp only [List.nil_append, List.cons_append] at step ⊢
    rw [if_pos (by simp), step]
  · simp only [List.nil_append, List.cons_append] at step ⊢
    rw [if_pos (by simp), step]

/-- The numeral as it is collected: leading zeros count as one, and the exponent mark is `e`. -/
def normal (n : Numeral) : Numeral :=
  { n with
    ip := (if (n.ip.takeWhile (fun c => decide (c = '0'))).isEmpty then [] else ['0']) ++ n.ip.dropWhile (fun c => decide (c = '0'))
    ex := n.ex.map (fun x => ('e', x.2)) }

theorem decVal_append (a b : Str) : decVal (a ++ b) = decVal a * 10 ^ b.length + decVal b := by
  unfold decVal
  rw [Nat.ofDigitChars_append, Nat.ofDigitChars_eq_ofDigitChars_zero, Nat.mul_comm]

theorem decVal_zeros (z : Str) (h : ∀ c ∈ z, c = '0') : decVal z = 0 := by
  obtain ⟨n, rfl⟩ : ∃ n, z = List.replicate n '0' := ⟨z.length, List.eq_replicate_iff.mpr ⟨rfl, h⟩⟩
  unfold decVal
  simp

theorem takeZeros_eq (s : Str) : ∀ c ∈ s.takeWhile (fun c => decide (c = '0')), c = '0' := by
  intro c hc
  simpa using mem_takeWhile hc

theorem normal_value (n : Numeral) : (normal n).mantissa = n.mantissa ∧ (normal n).exponent = n.exponent
    ∧ (normal n).negative = n.negative := by
  refine ⟨?_, ?_, rfl⟩
  · unfold Numeral.mantissa
    have hf : (normal n).frac = n.frac := rfl
    have hi : (normal n).ip = (if (n.ip.takeWhile (fun c => decide (c = '0'))).isEmpty then [] else ['0'])
      ++ n.ip.dropWhile (fun c => decide (c = '0')) := rfl
    have key : decVal (normal n).ip = decVal n.ip := by
      rw [hi, decVal_append]
      conv_rhs => rw [← List.takeWhile_append_dropWhile (p := fun c => decide (c = '0')) (l := n.ip), decVal_append,
        decVal_zeros _ (takeZeros_eq _)]
      congr 2
      split <;> rfl
    rw [hf, decVal_append, decVal_append, key]
  · unfold Numeral.exponent
    have hf : (normal n).frac = n.frac := rfl
    have he : (normal n).ex = n.ex.map (fun x => ('e', x.2)) := rfl
    rw [hf, he]
    cases n.ex <;> rfl

theorem normal_ok {n : Numeral} (h : n.Ok) : (normal n).Ok := by
  have hf : (normal n).frac = n.frac := rfl
  have hi : (normal n).ip = (if (n.ip.takeWhile (fun c => decide (c = '0'))).isEmpty then [] else ['0'])
      ++ n.ip.dropWhile (fun c => decide (c = '0')) := rfl
  refine ⟨h.sg, ?_, h.fp, ?_, ?_⟩
  · intro c hc
    rw [hi, List.mem_append] at hc
    rcases hc with hc | hc
    · split at hc
      · simp at hc
      · simp only [List.mem_singleton] at hc; subst hc; decide
    · exact h.ip c ((List.dropWhile_sublist _).subset hc)
  · intro he
    rw [List.append_eq_nil_iff, hi, hf, List.append_eq_nil_iff] at he
    obtain ⟨⟨h1, h2⟩, h3⟩ := he
    apply h.ne
    rw [h3, List.append_nil, ← List.takeWhile_append_dropWhile (p := fun c => decide (c = '0')) (l := n.ip), h2, List.append_nil]
    split at h1
    · rename_i hh; exact List.isEmpty_iff.mp hh
    · simp at h1
  · intro e s d he
    have : (normal n).ex = n.ex.map (fun x => ('e', x.2)) := rfl
    rw [this] at he
    cases hx : n.ex with
    | none => rw [hx] at he; simp at he
    | some x =>
      obtain ⟨e', s', d'⟩ := x
      rw [hx] at he
      simp only [Option.map_some, Option.some.injEq, Prod.mk.injEq] at he
      obtain ⟨rfl, rfl, rfl⟩ := he
      exact ⟨Or.inl rfl, (h.ex _ _ _ hx).2⟩

theorem signChars_eq {sg r : Str} (hs : Numeral.IsSign sg) (hr : ∀ c, r.head? = some c → c ≠ '+' ∧ c ≠ '-') :
    signChars (sg ++ r) = (sg, r) := by
  rcases hs with rfl | rfl | rfl
  · cases r with
    | nil => rfl
    | cons c r =>
      obtain ⟨h1, h2⟩ := hr c rfl
      simp only [List.nil_append, signChars]
      split
      · rename_i heq; simp only [List.cons.injEq] at heq; exact absurd heq.1 h2
      · rename_i heq; simp only [List.cons.injEq] at heq; exact absurd heq.1 h1
      · rfl
  · rfl
  · rfl

/-- What follows the digits before the point. -/
theorem tail_head {n : Numeral} (h : n.Ok) {r : Str} (hr : Stops r) :
    ∀ c, (n.fracText ++ n.expText ++ r).head? = some c → c = '.' ∨ c = 'e' ∨ c = 'E' ∨ isSpace c = true := by
  intro c hc
  unfold Numeral.fracText Numeral.expText at hc
  cases hf : n.fp with
  | some f => rw [hf] at hc; simp at hc; exact Or.inl hc.symm
  | none =>
    cases hx : n.ex with
    | some x =>
      obtain ⟨e, s, d⟩ := x
      rw [hf, hx] at hc
      simp at hc
      subst hc
      rcases (h.ex e s d hx).1 with rfl | rfl
      · exact Or.inr (Or.inl rfl)
      · exact Or.inr (Or.inr (Or.inl rfl))
    | none =>
      rw [hf, hx] at hc
      simp at hc
      exact Or.inr (Or.inr (Or.inr (hr c hc)))

/-- The collection of the characters of a numeral that is followed by white space or nothing. -/
theorem collectFloat_eq {n : Numeral} (h : n.Ok) {r : Str} (hr : Stops r) :
    collectFloat (n.text ++ r) = ((normal n).text, r) := by
  have ht := tail_head h hr
  generalize hT : n.fracText ++ n.expText ++ r = T at ht
  have htext : n.text ++ r = n.sg ++ (n.ip ++ T) := by
    rw [← hT]; simp [Numeral.text]
  have hhead : ∀ c, (n.ip ++ T).head? = some c → c ≠ '+' ∧ c ≠ '-' := by
    intro c hc
    cases hi : n.ip with
    | nil =>
      rw [hi, List.nil_append] at hc
      rcases ht c hc with rfl | rfl | rfl | hs
      · decide
      · decide
      · decide
      · obtain ⟨-, -, -, h1, h2⟩ := isE_space hs; exact ⟨h1, h2⟩
    | cons d ds =>
      rw [hi] at hc
      simp only [List.cons_append, List.head?_cons, Option.some.injEq] at hc
      subst hc
      have := h.ip d (by rw [hi]; simp)
      constructor <;> rintro rfl <;> simp [isDigit] at this
  have hstop : ∀ c, T.head? = some c → decide (c = '0') = false := by
    intro c hc
    rcases ht c hc with rfl | rfl | rfl | hs
    · decide
    · decide
    · decide
    · simp [(isE_space hs).2.2.1]
  generalize hz : n.ip.takeWhile (fun c => decide (c = '0')) = z
  generalize hw : n.ip.dropWhile (fun c => decide (c = '0')) = w
  have hzw : n.ip = z ++ w := by rw [← hz, ← hw, List.takeWhile_append_dropWhile]
  have hwh : ∀ c, (w ++ T).head? = some c → decide (c = '0') = false := by
    intro c hc
    cases hw' : w with
    | nil => rw [hw', List.nil_append] at hc; exact hstop c hc
    | cons d ds =>
      rw [hw'] at hc
      simp only [List.cons_append, List.head?_cons, Option.some.injEq] at hc
      subst hc
      exact head_dropWhile (l := n.ip) (by rw [hw, hw']; rfl)
  have hzt : ∀ c ∈ z, decide (c = '0') = true := by
    intro c hc; rw [← hz] at hc; exact decide_eq_true (takeZeros_eq _ c hc)
  have t1 : (n.ip ++ T).takeWhile (fun c => decide (c = '0')) = z := by
    rw [hzw, List.append_assoc]; exact takeWhile_append_stop hzt hwh
  have t2 : (n.ip ++ T).dropWhile (fun c => decide (c = '0')) = w ++ T := by
    rw [hzw, List.append_assoc]; exact dropWhile_append_stop hzt hwh
  have hwd : ∀ c ∈ w, isDigit c = true := fun c hc => h.ip c (by rw [hzw]; simp [hc])
  have loop : ∀ m : Bool, (m || !w.isEmpty || !n.frac.isEmpty) = true →
      collectLoop m false false (w ++ T) = (w ++ (n.fracText ++ (normal n).expText), r) := by
    intro m hm
    rw [collectLoop_digits _ _ _ _ _ hwd]
    generalize hm' : (m || !w.isEmpty) = m' at hm
    have hexp : ∀ d, collectLoop true d false (n.expText ++ r) = ((normal n).expText, r) := by
      intro d
      have hn : (normal n).expText = match n.ex with | none => [] | some (_, s, d) => 'e' :: (s ++ d) := by
        unfold Numeral.expText
        have : (normal n).ex = n.ex.map (fun x => ('e', x.2)) := rfl
        rw [this]
        cases n.ex <;> rfl
      rw [hn]
      unfold Numeral.expText
      cases hx : n.ex with
      | none => simp only [List.nil_append]; exact collectLoop_stop _ _ _ hr
      | some x =>
        obtain ⟨e, s, ds⟩ := x
        obtain ⟨h1, h2, h3, h4⟩ := h.ex e s ds hx
        exact collectLoop_exp d h1 h2 h3 h4 hr
    have : collectLoop m' false false T = (n.fracText ++ (normal n).expText, r) := by
      rw [← hT]
      unfold Numeral.fracText
      cases hf : n.fp with
      | none =>
        have hfr : n.frac = [] := by simp [Numeral.frac, hf]
        rw [hfr] at hm
        have : m' = true := by simpa using hm
        rw [this]
        simp only [List.nil_append]
        exact hexp false
      | some f =>
        have hfr : n.frac = f := by simp [Numeral.frac, hf]
        have hfd : ∀ c ∈ f, isDigit c = true := by rw [← hfr]; exact h.fp
        simp only [List.cons_append, List.append_assoc]
        rw [collectLoop_point, collectLoop_digits _ _ _ _ _ hfd]
        have : (m' || !f.isEmpty) = true := by rw [← hfr]; exact hm
        rw [this, hexp true]
    rw [this]
  unfold collectFloat
  rw [htext, signChars_eq h.sg hhead]
  simp only [t1, t2]
  have hm : (!z.isEmpty || !w.isEmpty || !n.frac.isEmpty) = true := by
    have := h.ne
    rw [hzw] at this
    cases z <;> cases w <;> cases hfr : n.frac <;> simp_all
  rw [loop _ hm]
  have hi : (normal n).ip = (if z.isEmpty then [] else ['0']) ++ w := by rw [← hz, ← hw]; rfl
  have hft : (normal n).fracText = n.fracText := rfl
  have hsg : (normal n).sg = n.sg := rfl
  unfold Numeral.text
  rw [hi, hft, hsg]
  simp

/-! ## `strtod` of a numeral -/

theorem text_chars {n : Numeral} (h : n.Ok) : ∀ c ∈ n.ip ++ (n.fracText ++ n.expText),
    isDigit c = true ∨ c ∈ ['.', 'e', 'E', '+', '-'] := by
  intro c hc
  rw [List.mem_append, List.mem_append] at hc
  rcases hc with hc | hc | hc
  · exact Or.inl (h.ip c hc)
  · have hf := h.fp
    unfold Numeral.fracText at hc
    unfold Numeral.frac at hf
    cases hx : n.fp with
    | none => rw [hx] at hc; simp at hc
    | some f =>
      rw [hx] at hc hf
      rcases List.mem_cons.mp hc with rfl | hc
      · exact Or.inr (by simp)
      · exact Or.inl (hf c hc)
  · unfold Numeral.expText at hc
    cases hx : n.ex with
    | none => rw [hx] at hc; simp at hc
    | some x =>
      obtain ⟨e, s, d⟩ := x
      obtain ⟨h1, h2, -, h4⟩ := h.ex e s d hx
      rw [hx] at hc
      rcases List.mem_cons.mp hc with rfl | hc
      · rcases h1 with rfl | rfl <;> exact Or.inr (by simp)
      · rcases List.mem_append.mp hc with hc | hc
        · rcases h2 with rfl | rfl | rfl
          · simp at hc
          · rw [List.mem_singleton] at hc; subst hc; exact Or.inr (by simp)
          · rw [List.mem_singleton] at hc; subst hc; exact Or.inr (by simp)
        · exact Or.inl (h4 c hc)

theorem lower_digit {c : Char} (h : isDigit c = true) : lower c = c := by
  simp only [isDigit, Bool.and_eq_true, decide_eq_true_eq] at h
  unfold lower
  rw [if_neg (by omega)]

theorem beginsWith_false {n : Numeral} (h : n.Ok) (w : Str) (x : Char) (hx : x ∈ w) (h1 : isDigit x = false)
    (h2 : x ∉ ['.', 'e', '+', '-']) : beginsWith w (n.ip ++ (n.fracText ++ n.expText)) = false := by
  unfold beginsWith
  rw [decide_eq_false_iff_not]
  intro he
  rw [← he, List.mem_map] at hx
  obtain ⟨c, hc, rfl⟩ := hx
  rcases text_chars h c (List.mem_of_mem_take hc) with hd | hc'
  · rw [lower_digit hd, hd] at h1; simp at h1
  · simp only [List.mem_cons, List.not_mem_nil, or_false] at hc'
    rcases hc' with rfl | rfl | rfl | rfl | rfl <;> revert h2 <;> decide

theorem takeWhile_digits {ds r : Str} (h : ∀ c ∈ ds, isDigit c = true) (hr : NoDigit r) :
    (ds ++ r).takeWhile isDigit = ds ∧ (ds ++ r).dropWhile isDigit = r :=
  ⟨takeWhile_append_stop h hr, dropWhile_append_stop h hr⟩

theorem sign_eq {sg r : Str} (hs : Numeral.IsSign sg) (hr : ∀ c, r.head? = some c → c ≠ '+' ∧ c ≠ '-') :
    sign (sg ++ r) = (decide (sg = ['-']), sg.length, r) := by
  rcases hs with rfl | rfl | rfl
  · cases r with
    | nil => rfl
    | cons c r =>
      obtain ⟨h1, h2⟩ := hr c rfl
      simp only [List.nil_append, sign]
      split
      · rename_i heq; simp only [List.cons.injEq] at heq; exact absurd heq.1 h2
      · rename_i heq; simp only [List.cons.injEq] at heq; exact absurd heq.1 h1
      · simp
  · rfl
  · rfl

theorem scanDec_eq {n : Numeral} (h : n.Ok) :
    scanDec (n.ip ++ (n.fracText ++ n.expText))
      = some { mantissa := n.mantissa, exponent := n.exponent, length := (n.ip ++ (n.fracText ++ n.expText)).length } := by
  have ht := tail_head h (r := []) (fun c hc => by simp at hc)
  rw [List.append_nil] at ht
  have nd : NoDigit (n.fracText ++ n.expText) := by
    intro c hc
    rcases ht c hc with rfl | rfl | rfl | hs
    · decide
    · decide
    · decide
    · exact space_not_digit hs
  have nde : NoDigit n.expText := by
    intro c hc
    unfold Numeral.expText at hc
    cases hx : n.ex with
    | none => rw [hx] at hc; simp at hc
    | some x =>
      obtain ⟨e, s, d⟩ := x
      rw [hx] at hc
      simp at hc
      subst hc
      rcases (h.ex e s d hx).1 with rfl | rfl <;> decide
  obtain ⟨t1, t2⟩ := takeWhile_digits h.ip nd
  have hfrac : scanFrac isDigit (n.fracText ++ n.expText) = (n.frac, n.fracText.length) := by
    unfold Numeral.fracText Numeral.frac
    cases hx : n.fp with
    | none =>
      simp only [List.nil_append, Option.getD_none, List.length_nil]
      unfold scanFrac
      split
      · rename_i t heq
        exfalso
        unfold Numeral.expText at heq
        cases hx : n.ex with
        | none => rw [hx] at heq; simp at heq
        | some x =>
          obtain ⟨e, s, d⟩ := x
          rw [hx] at heq
          simp only [List.cons.injEq] at heq
          rcases (h.ex e s d hx).1 with he | he <;> rw [he] at heq <;> exact absurd heq.1 (by decide)
      · rfl
    | some f =>
      have hf : ∀ c ∈ f, isDigit c = true := by have := h.fp; rwa [Numeral.frac, hx] at this
      simp only [List.cons_append, Option.getD_some, scanFrac, (takeWhile_digits hf nde).1, List.length_cons]
      rw [Nat.add_comm]
  have hexp : scanExp isE n.expText = (n.exponent + n.frac.length, n.expText.length) := by
    unfold Numeral.exponent Numeral.expText
    cases hx : n.ex with
    | none => simp [scanExp]
    | some x =>
      obtain ⟨e, s, d⟩ := x
      obtain ⟨h1, h2, h3, h4⟩ := h.ex e s d hx
      obtain ⟨c, d', rfl⟩ : ∃ c d', d = c :: d' := by
        cases d with
        | nil => exact absurd rfl h3
        | cons c d' => exact ⟨c, d', rfl⟩
      have hc : isDigit c = true := h4 c (by simp)
      have hs := sign_eq (r := c :: d') h2 (by
        intro x hx
        simp only [List.head?_cons, Option.some.injEq] at hx
        subst hx
        constructor <;> rintro rfl <;> simp [isDigit] at hc)
      have tw : (c :: d').takeWhile isDigit = c :: d' := by
        have := (takeWhile_digits (r := []) h4 noDigit_nil).1
        rwa [List.append_nil] at this
      simp only [scanExp]
      rw [if_pos (by rcases h1 with rfl | rfl <;> decide), hs]
      simp only [tw]
      rw [if_neg (by simp)]
      simp only [decide_eq_true_eq, Prod.mk.injEq, List.length_cons, List.length_append]
      constructor
      · omega
      · omega
  have hdrop : (n.ip ++ (n.fracText ++ n.expText)).drop (n.ip.length + n.fracText.length) = n.expText := by
    rw [← List.append_assoc, ← List.length_append, List.drop_left]
  unfold scanDec
  simp only [t1, t2, hfrac, hdrop, hexp]
  have hne : (n.ip.isEmpty && n.frac.isEmpty) = false := by
    have := h.ne
    cases hi : n.ip <;> cases hf : n.frac <;> simp_all
  rw [hne]
  simp only [Bool.false_eq_true, if_false, Option.some.injEq, Scanned.mk.injEq]
  refine ⟨rfl, by omega, by simp [List.length_append]; omega⟩

theorem text_head {n : Numeral} (h : n.Ok) : ∀ c, (n.ip ++ (n.fracText ++ n.expText)).head? = some c → c ≠ '+' ∧ c ≠ '-' := by
  intro c hc
  have ht := tail_head h (r := []) (fun c hc => by simp at hc)
  rw [List.append_nil] at ht
  cases hi : n.ip with
  | nil =>
    rw [hi, List.nil_append] at hc
    rcases ht c hc with rfl | rfl | rfl | hs
    · decide
    · decide
    · decide
    · obtain ⟨-, -, -, h1, h2⟩ := isE_space hs; exact ⟨h1, h2⟩
  | cons d ds =>
    rw [hi] at hc
    simp only [List.cons_append, List.head?_cons, Option.some.injEq] at hc
    subst hc
    have := h.ip d (by rw [hi]; simp)
    constructor <;> rintro rfl <;> simp [isDigit] at this

theorem text_noSpace {n : Numeral} (h : n.Ok) : ∀ c ∈ n.text, isSpace c = false := by
  intro c hc
  unfold Numeral.text at hc
  rcases List.mem_append.mp hc with hc | hc
  · rcases h.sg with e | e | e <;> rw [e] at hc
    · simp at hc
    · rw [List.mem_singleton] at hc; subst hc; decide
    · rw [List.mem_singleton] at hc; subst hc; decide
  · rcases text_chars h c hc with hd | hc
    · exact digit_not_space hd
    · simp only [List.mem_cons, List.not_mem_nil, or_false] at hc
      rcases hc with rfl | rfl | rfl | rfl | rfl <;> decide

theorem text_ne {n : Numeral} (h : n.Ok) : n.ip ++ (n.fracText ++ n.expText) ≠ [] := by
  intro he
  rw [List.append_eq_nil_iff, List.append_eq_nil_iff] at he
  apply h.ne
  obtain ⟨h1, h2, -⟩ := he
  rw [h1, List.nil_append]
  unfold Numeral.fracText at h2
  unfold Numeral.frac
  cases hx : n.fp with
  | none => rfl
  | some f => rw [hx] at h2; simp at h2

theorem takeWhile_none {α : Type} {p : α → Bool} {l : List α} (h : ∀ a ∈ l, p a = false) : l.takeWhile p = [] ∧ l.dropWhile p = l := by
  cases l with
  | nil => simp
  | cons a l => simp [h a (by simp)]

/-- `strtod` of a numeral uses all of it and gives the nearest double. -/
theorem strtod_numeral {n : Numeral} (h : n.Ok) :
    strtod n.text = { value := F64.ofScaled n.negative 10 n.mantissa n.exponent, length := n.text.length,
                      range := F64.rangeError 10 n.mantissa n.exponent } := by
  obtain ⟨w1, w2⟩ := takeWhile_none (text_noSpace h)
  unfold strtod
  rw [w1, w2]
  have : sign n.text = (decide (n.sg = ['-']), n.sg.length, n.ip ++ (n.fracText ++ n.expText)) := sign_eq h.sg (text_head h)
  rw [this]
  simp only
  have hb : strtodBody (decide (n.sg = ['-'])) (n.ip ++ (n.fracText ++ n.expText))
      = some { value := F64.ofScaled n.negative 10 n.mantissa n.exponent, length := (n.ip ++ (n.fracText ++ n.expText)).length,
               range := F64.rangeError 10 n.mantissa n.exponent } := by
    unfold strtodBody
    rw [beginsWith_false h "infinity".toList 'i' (by decide) (by decide) (by decide),
      beginsWith_false h "inf".toList 'i' (by decide) (by decide) (by decide),
      beginsWith_false h "nan".toList 'n' (by decide) (by decide) (by decide),
      beginsWith_false h "0x".toList 'x' (by decide) (by decide) (by decide)]
    simp only [Bool.false_eq_true, if_false, scanDec_eq h]
    rfl
  rw [hb]
  simp only [Strtod.mk.injEq, true_and, and_true, List.length_nil]
  unfold Numeral.text
  simp only [List.length_append]
  omega

/-- Reading a numeral after white space. -/
theorem readDouble_numeral' {n : Numeral} (h : n.Ok) {ws r : Str} (hw : ∀ c ∈ ws, isSpace c = true) (hr : Stops r) (old : F64) :
    TextIn.readDouble { rest := ws ++ (n.text ++ r) } old
      = if (F64.ofScaled n.negative 10 n.mantissa n.exponent).isInf = true then
          (if (F64.ofScaled n.negative 10 n.mantissa n.exponent).neg then F64.lowest else F64.maxVal,
            { rest := r, eof := r.isEmpty, fail := true })
        else (F64.ofScaled n.negative 10 n.mantissa n.exponent, { rest := r, eof := r.isEmpty, fail := false }) := by
  have hne : n.text ≠ [] := fun he => text_ne h (List.append_eq_nil_iff.mp he).2
  have hd : (ws ++ (n.text ++ r)).dropWhile isSpace = n.text ++ r := by
    refine dropWhile_append_stop hw ?_
    intro c hc
    obtain ⟨d, t, ht⟩ : ∃ d t, n.text = d :: t := by
      cases ht : n.text with
      | nil => exact absurd ht hne
      | cons d t => exact ⟨d, t, rfl⟩
    rw [ht] at hc
    simp only [List.cons_append, List.head?_cons, Option.some.injEq] at hc
    subst hc
    exact text_noSpace h d (by rw [ht]; simp)
  have hemp : (n.text ++ r).isEmpty = false := by
    cases ht : n.text with
    | nil => exact absurd ht hne
    | cons d t => rfl
  have hs : TextIn.sentry { rest := ws ++ (n.text ++ r) } = (true, { rest := n.text ++ r }) := by
    unfold TextIn.sentry TextIn.good
    simp only [Bool.not_false, Bool.and_true, Bool.not_true, Bool.false_eq_true, if_false, hd, hemp]
  unfold TextIn.readDouble
  rw [hs]
  simp only [Bool.not_true, Bool.false_eq_true, if_false, collectFloat_eq h hr]
  obtain ⟨v1, v2, v3⟩ := normal_value n
  have hst := strtod_numeral (normal_ok h)
  rw [v1, v2, v3] at hst
  rw [hst]
  simp only
  have hlen : (normal n).text.length ≠ 0 := by
    have := text_ne (normal_ok h)
    unfold Numeral.text
    rw [List.length_append]
    have := List.length_pos_iff.mpr this
    omega
  rw [if_neg (by simp [hlen])]

/-- Reading a numeral that does not overflow, after white space. -/
theorem readDouble_numeral {n : Numeral} (h : n.Ok) {ws r : Str} (hw : ∀ c ∈ ws, isSpace c = true) (hr : Stops r)
    (hfin : (F64.ofScaled n.negative 10 n.mantissa n.exponent).isInf = false) (old : F64) :
    TextIn.readDouble { rest := ws ++ (n.text ++ r) } old
      = (F64.ofScaled n.negative 10 n.mantissa n.exponent, { rest := r, eof := r.isEmpty, fail := false }) := by
  rw [readDouble_numeral' h hw hr, hfin]
  simp

/-! ## Printed numbers are numerals -/

theorem stripZeros_spec (f : Str) : ∃ k, f = stripZeros f ++ List.replicate k '0' := by
  unfold stripZeros
  refine ⟨(f.reverse.takeWhile (fun c => decide (c = '0'))).length, ?_⟩
  have h : List.replicate (f.reverse.takeWhile (fun c => decide (c = '0'))).length '0'
      = (f.reverse.takeWhile (fun c => decide (c = '0'))).reverse := by
    rw [eq_comm, List.eq_replicate_iff]
    exact ⟨by simp, fun c hc => takeZeros_eq _ c (List.mem_reverse.mp hc)⟩
  rw [h, ← List.reverse_append, List.takeWhile_append_dropWhile, List.reverse_reverse]

/-- The numeral with digits `i` and `f`, zeros at the end left out, and exponent `ex`. -/
def fracNumeral (i f : Str) (ex : Option (Char × Str × Str)) : Numeral :=
  { ip := i, fp := if (stripZeros f).isEmpty then none else some (stripZeros f), ex := ex }

theorem fracNumeral_text (i f : Str) (ex : Option (Char × Str × Str)) :
    (fracNumeral i f ex).text = withFrac i f ++ (fracNumeral i f ex).expText := by
  unfold Numeral.text withFrac Numeral.fracText
  simp only [fracNumeral]
  by_cases h : (stripZeros f).isEmpty = true
  · simp [h]
  · simp [h]

theorem fracNumeral_frac (i f : Str) (ex : Option (Char × Str × Str)) : (fracNumeral i f ex).frac = stripZeros f := by
  unfold Numeral.frac fracNumeral
  by_cases h : (stripZeros f).isEmpty = true
  · simp [List.isEmpty_iff.mp h]
  · simp [h]

theorem fracNumeral_ok {i f : Str} {ex : Option (Char × Str × Str)} (hi : i ≠ []) (hid : ∀ c ∈ i, isDigit c = true)
    (hfd : ∀ c ∈ f, isDigit c = true)
    (hex : ∀ e s d, ex = some (e, s, d) → (e = 'e' ∨ e = 'E') ∧ Numeral.IsSign s ∧ d ≠ [] ∧ ∀ c ∈ d, isDigit c = true) :
    (fracNumeral i f ex).Ok where
  sg := Or.inl rfl
  ip := hid
  fp := by
    rw [fracNumeral_frac]
    obtain ⟨k, hk⟩ := stripZeros_spec f
    intro c hc
    exact hfd c (by rw [hk]; simp [hc])
  ne := fun he => hi (List.append_eq_nil_iff.mp he).1
  ex := hex

/-- The power of ten of the exponent part. -/
def exValue (ex : Option (Char × Str × Str)) : ℤ :=
  match ex with
  | none => 0
  | some (_, s, d) => if s = ['-'] then - (decVal d : Int) else (decVal d : Int)

theorem fracNumeral_value (i f : Str) (ex : Option (Char × Str × Str)) :
    ((fracNumeral i f ex).mantissa : ℚ) * 10 ^ (fracNumeral i f ex).exponent
      = decVal (i ++ f) * 10 ^ (exValue ex - f.length) := by
  have he : (fracNumeral i f ex).exponent = exValue ex - (stripZeros f).length := by
    unfold Numeral.exponent
    rw [fracNumeral_frac]
    rfl
  have hm : (fracNumeral i f ex).mantissa = decVal (i ++ stripZeros f) := by
    unfold Numeral.mantissa
    rw [fracNumeral_frac]
    rfl
  rw [he, hm]
  obtain ⟨k, hk⟩ := stripZeros_spec f
  generalize stripZeros f = t at *
  subst hk
  rw [← List.append_assoc, decVal_append (i ++ t), decVal_zeros _ (fun c hc => (List.mem_replicate.mp hc).2)]
  simp only [List.length_append, List.length_replicate, Nat.add_zero]
  push_cast
  rw [mul_assoc]
  congr 1
  rw [← zpow_natCast (10 : ℚ) k, ← zpow_add₀ (by norm_num)]
  congr 1
  omega

theorem formatG_numeral {P : Nat} {ds : Str} (hP : 0 < P) (hl : ds.length = P) (hd : ∀ c ∈ ds, isDigit c = true) (X : ℤ) :
    ∃ n : Numeral, n.Ok ∧ n.sg = [] ∧ n.text = formatG P ds X
      ∧ (n.mantissa : ℚ) * 10 ^ n.exponent = decVal ds * 10 ^ (X - (P - 1 : Nat)) := by
  have noex : ∀ e s d, (none : Option (Char × Str × Str)) = some (e, s, d) →
      (e = 'e' ∨ e = 'E') ∧ Numeral.IsSign s ∧ d ≠ [] ∧ ∀ c ∈ d, isDigit c = true := by simp
  unfold formatG
  by_cases h1 : -4 ≤ X ∧ X < (P : Int)
  · rw [if_pos h1]
    by_cases h2 : X < 0
    · rw [if_pos h2]
      refine ⟨fracNumeral ['0'] (List.replicate (-X - 1).toNat '0' ++ ds) none, fracNumeral_ok (by simp) (by simp; decide) ?_ noex, rfl, ?_, ?_⟩
      · intro c hc
        rcases List.mem_append.mp hc with hc | hc
        · rw [(List.mem_replicate.mp hc).2]; decide
        · exact hd c hc
      · rw [fracNumeral_text]; simp [Numeral.expText, fracNumeral]
      · rw [fracNumeral_value]
        have : decVal (['0'] ++ (List.replicate (-X - 1).toNat '0' ++ ds)) = decVal ds := by
          rw [decVal_append, decVal_append, decVal_zeros (List.replicate _ _) (fun c hc => (List.mem_replicate.mp hc).2)]
          simp [decVal, Nat.ofDigitChars]
        rw [this]
        simp only [exValue, List.length_append, List.length_replicate, hl]
        congr 2
        omega
    · rw [if_neg h2]
      refine ⟨fracNumeral (ds.take (X + 1).toNat) (ds.drop (X + 1).toNat) none, fracNumeral_ok ?_ ?_ ?_ noex, rfl, ?_, ?_⟩
      · intro he
        have := congrArg List.length he
        rw [List.length_take, hl, List.length_nil] at this
        omega
      · exact fun c hc => hd c (List.mem_of_mem_take hc)
      · exact fun c hc => hd c (List.mem_of_mem_drop hc)
      · rw [fracNumeral_text]; simp [Numeral.expText, fracNumeral]
      · rw [fracNumeral_value, List.take_append_drop]
        simp only [exValue, List.length_drop, hl]
        congr 2
        omega
  · rw [if_neg h1]
    have hE : (showExp X) = (fracNumeral (ds.take 1) (ds.drop 1) (some ('e', [if X < 0 then '-' else '+'],
        if X.natAbs < 10 then '0' :: showNat X.natAbs else showNat X.natAbs))).expText := rfl
    have hdv : decVal (if X.natAbs < 10 then '0' :: showNat X.natAbs else showNat X.natAbs) = X.natAbs := by
      split
      · have := decVal_append ['0'] (showNat X.natAbs)
        rw [List.singleton_append] at this
        rw [this, decVal_showNat]
        simp [decVal, Nat.ofDigitChars]
      · exact decVal_showNat _
    refine ⟨fracNumeral (ds.take 1) (ds.drop 1) (some ('e', [if X < 0 then '-' else '+'],
      if X.natAbs < 10 then '0' :: showNat X.natAbs else showNat X.natAbs)), fracNumeral_ok ?_ ?_ ?_ ?_, rfl, ?_, ?_⟩
    · intro he
      have := congrArg List.length he
      rw [List.length_take, hl, List.length_nil] at this
      omega
    · exact fun c hc => hd c (List.mem_of_mem_take hc)
    · exact fun c hc => hd c (List.mem_of_mem_drop hc)
    · intro e s d he
      simp only [Option.some.injEq, Prod.mk.injEq] at he
      obtain ⟨rfl, rfl, rfl⟩ := he
      refine ⟨Or.inl rfl, ?_, ?_, ?_⟩
      · split
        · exact Or.inr (Or.inr rfl)
        · exact Or.inr (Or.inl rfl)
      · split
        · simp
        · exact showNat_ne _
      · intro c hc
        split at hc
        · rcases List.mem_cons.mp hc with rfl | hc
          · decide
          · exact showNat_digits _ c hc
        · exact showNat_digits _ c hc
    · rw [fracNumeral_text, ← hE]
    · rw [fracNumeral_value, List.take_append_drop]
      have : exValue (some ('e', [if X < 0 then '-' else '+'],
          if X.natAbs < 10 then '0' :: showNat X.natAbs else showNat X.natAbs)) = X := by
        unfold exValue
        simp only [hdv]
        by_cases h : X < 0
        · simp only [h, if_true]; omega
        · simp only [h, if_false]
          rw [if_neg (by decide)]
          omega
      rw [this]
      simp only [List.length_drop, hl]

/-- What is printed for a number other than zero, infinities and NaN: a numeral with the rounded value. -/
theorem showDouble_numeral {P : Nat} (hP : 0 < P) {x : F64} (hf : x.isFinite = true) (h0 : x.mag ≠ 0) :
    ∃ n : Numeral, n.Ok ∧ n.text = showDouble P x ∧ n.negative = x.neg ∧ 0 < n.mantissa
      ∧ (n.mantissa : ℚ) * 10 ^ n.exponent = decValue P (decRound P (F64.fixMag x.mag) F64.one1074) := by
  have hA : 0 < F64.fixMag x.mag := Nat.pos_of_ne_zero (fun h => h0 (F64.fixMag_eq_zero.mp h))
  have hB : 0 < F64.one1074 := F64.one1074_pos
  obtain ⟨s1, s2, -⟩ := decRound_spec hP hA hB
  unfold showDouble
  have hm : x.mag < F64.infMag := by simpa [F64.isFinite] using hf
  have hn : x.isNaN = false := by simp only [F64.isNaN, decide_eq_false_iff_not]; omega
  have hi : x.isInf = false := by simp only [F64.isInf, decide_eq_false_iff_not]; omega
  rw [hn, hi]
  simp only [Bool.false_eq_true, if_false, h0]
  generalize decRound P (F64.fixMag x.mag) F64.one1074 = r at *
  obtain ⟨N, X⟩ := r
  simp only at s1 s2 ⊢
  have hNpos : 0 < N := lt_of_lt_of_le (by positivity) s1
  have hlen : (showNat N).length = P := by
    obtain ⟨b1, b2⟩ := showNat_bounds hNpos
    have c1 := (Nat.pow_lt_pow_iff_right (by norm_num : 1 < 10)).mp (lt_of_le_of_lt b1 s2)
    have c2 := (Nat.pow_lt_pow_iff_right (by norm_num : 1 < 10)).mp (lt_of_le_of_lt s1 b2)
    omega
  obtain ⟨n, h1, h2, h3, h4⟩ := formatG_numeral hP hlen (showNat_digits N) X
  rw [decVal_showNat] at h4
  have hsg : Numeral.IsSign (if x.neg then ['-'] else []) := by
    cases x.neg
    · exact Or.inl rfl
    · exact Or.inr (Or.inr rfl)
  refine ⟨{ n with sg := if x.neg then ['-'] else [] }, ⟨hsg, h1.ip, h1.fp, h1.ne, h1.ex⟩, ?_, ?_, ?_, ?_⟩
  · have : n.text = n.ip ++ (n.fracText ++ n.expText) := by unfold Numeral.text; rw [h2]; rfl
    rw [← h3, this]
    rfl
  · cases h : x.neg <;> simp [Numeral.negative]
  · show 0 < n.mantissa
    rcases Nat.eq_zero_or_pos n.mantissa with h | h
    · rw [h, Nat.cast_zero, zero_mul] at h4
      have : (0 : ℚ) < N * 10 ^ (X - ((P - 1 : ℕ) : ℤ)) := mul_pos (Nat.cast_pos.mpr hNpos) (zpow_pos (by norm_num) _)
      rw [← h4] at this
      exact absurd this (lt_irrefl _)
    · exact h
  · show (n.mantissa : ℚ) * 10 ^ n.exponent = _
    rw [h4]
    rfl

/-! ## Printing and reading back -/

theorem ofScaled_eq (neg : Bool) {m : Nat} (hm : 0 < m) (k : ℤ) :
    F64.ofScaled neg 10 m k = F64.mk' neg (F64.roundMag (F64.scaledNum 10 m k) (F64.scaledDen 10 k)) := by
  have hp : 0 < F64.scaledNum 10 m k := by
    unfold F64.scaledNum
    exact Nat.mul_pos (Nat.mul_pos hm (Nat.pow_pos (by norm_num))) F64.one1074_pos
  unfold F64.ofScaled F64.rnd
  generalize F64.scaledNum 10 m k = A at *
  cases neg
  · simp only [Bool.false_eq_true, if_false]
    rw [if_neg (by omega), decide_eq_false (by omega), Int.natAbs_natCast]
  · simp only [if_true]
    rw [if_neg (by omega), decide_eq_true (by omega), Int.natAbs_neg, Int.natAbs_natCast]

theorem scaled_q (m : Nat) (k : ℤ) :
    (F64.scaledNum 10 m k : ℚ) / (F64.scaledDen 10 k : ℕ) = (m * 10 ^ k) * (F64.one1074 : ℕ) := by
  unfold F64.scaledNum F64.scaledDen
  rw [zpow_split]
  generalize F64.one1074 = U
  push_cast
  field_simp

theorem scaledDen_pos (k : ℤ) : 0 < F64.scaledDen 10 k := Nat.pow_pos (by norm_num)

/-- A magnitude is a decimal number of `P` digits, or the one nearest to it and centred. -/
def Shows (P M : Nat) : Prop :=
  ∃ (m : Nat) (j : ℤ), m < 10 ^ P ∧
    ((m : ℚ) * 10 ^ j * (F64.one1074 : ℕ) = F64.fixMag M
      ∨ (F64.Centred M ∧ F64.roundMag (F64.scaledNum 10 m j) (F64.scaledDen 10 j) = M))

/-- Rounding to `P` digits and back to a double. -/
theorem round_back {P M : Nat} (hP : 0 < P) (h0 : M ≠ 0) (hi : M < F64.infMag) (hs : Shows P M) {m : Nat} {k : ℤ}
    (hv : (m : ℚ) * 10 ^ k = decValue P (decRound P (F64.fixMag M) F64.one1074)) :
    F64.roundMag (F64.scaledNum 10 m k) (F64.scaledDen 10 k) = M := by
  have hA : 0 < F64.fixMag M := Nat.pos_of_ne_zero (fun h => h0 (F64.fixMag_eq_zero.mp h))
  have hU : (0 : ℚ) < (F64.one1074 : ℕ) := Nat.cast_pos.mpr F64.one1074_pos
  obtain ⟨-, -, near⟩ := decRound_spec hP hA F64.one1074_pos
  rw [← hv] at near
  obtain ⟨m', j, hm', hs⟩ := hs
  have near := near m' j hm'
  have e1 := scaled_q m k
  have e2 := scaled_q m' j
  have hD1 := scaledDen_pos k
  have hD2 := scaledDen_pos j
  have eM : F64.roundMag (F64.fixMag M * 1) 1 = M := F64.roundMag_exact one_pos hi.le
  rcases hs with hs | ⟨hc, hs⟩
  · have hz : (F64.fixMag M : ℚ) / (F64.one1074 : ℕ) = m' * 10 ^ j := by rw [← hs, mul_div_assoc, div_self hU.ne', mul_one]
    rw [hz, sub_self, abs_zero] at near
    have hz' := sub_eq_zero.mp (abs_nonpos_iff.mp near)
    have : (F64.scaledNum 10 m k : ℚ) / (F64.scaledDen 10 k : ℕ) = ((F64.fixMag M * 1 : ℕ) : ℚ) / ((1 : ℕ) : ℚ) := by
      rw [e1, ← hz', hs]; simp
    exact (F64.roundMag_congr_q hD1 one_pos this).trans eM
  · refine F64.roundMag_near hD2 hD1 hc hi hs ?_
    rw [e1, e2]
    generalize hUU : ((F64.one1074 : ℕ) : ℚ) = U at *
    have e3 : ∀ t : ℚ, |t * U - F64.fixMag M| = |(F64.fixMag M : ℚ) / U - t| * U := by
      intro t
      have : t * U - F64.fixMag M = -(((F64.fixMag M : ℚ) / U - t) * U) := by rw [sub_mul, div_mul_cancel₀ _ hU.ne']; ring
      rw [this, abs_neg, abs_mul, abs_of_pos hU]
    rw [e3, e3]
    exact mul_le_mul_of_nonneg_right near hU.le

/-- A finite number that is printed with `P` digits and read again, if it is zero or `P` digits are enough. -/
theorem read_show {P : Nat} (hP : 0 < P) {x : F64} (hf : x.isFinite = true) (hs : x.mag = 0 ∨ Shows P x.mag)
    {ws r : Str} (hw : ∀ c ∈ ws, isSpace c = true) (hr : Stops r) (old : F64) :
    TextIn.readDouble { rest := ws ++ (showDouble P x ++ r) } old = (x, { rest := r, eof := r.isEmpty, fail := false }) := by
  have hm : x.mag < F64.infMag := by simpa [F64.isFinite] using hf
  have hn : x.isNaN = false := by simp only [F64.isNaN, decide_eq_false_iff_not]; omega
  have hi : x.isInf = false := by simp only [F64.isInf, decide_eq_false_iff_not]; omega
  by_cases h0 : x.mag = 0
  · have hshow : showDouble P x = Numeral.text { sg := if x.neg then ['-'] else [], ip := ['0'] } := by
      unfold showDouble
      simp only [hn, hi, h0, Bool.false_eq_true, if_false, if_true]
      rfl
    have ok : Numeral.Ok { sg := if x.neg then ['-'] else [], ip := ['0'] } := by
      refine ⟨?_, by simp; decide, by simp [Numeral.frac], by simp, by simp⟩
      cases x.neg
      · exact Or.inl rfl
      · exact Or.inr (Or.inr rfl)
    have hval : F64.ofScaled (Numeral.negative { sg := if x.neg then ['-'] else [], ip := ['0'] }) 10
        (Numeral.mantissa { sg := if x.neg then ['-'] else [], ip := ['0'] })
        (Numeral.exponent { sg := if x.neg then ['-'] else [], ip := ['0'] }) = x := by
      have e1 : Numeral.negative { sg := if x.neg then ['-'] else [], ip := ['0'] } = x.neg := by
        cases x.neg <;> simp [Numeral.negative]
      have e2 : Numeral.mantissa { sg := if x.neg then ['-'] else [], ip := ['0'] } = 0 := by
        simp [Numeral.mantissa, Numeral.frac, decVal, Nat.ofDigitChars]
      rw [e1, e2]
      unfold F64.ofScaled F64.rnd
      have : F64.scaledNum 10 0 (Numeral.exponent { sg := if x.neg then ['-'] else [], ip := ['0'] }) = 0 := by
        unfold F64.scaledNum; rw [Nat.zero_mul, Nat.zero_mul]
      rw [this, if_pos (by split <;> rfl), ← h0, F64.mk'_eta]
    rw [hshow, readDouble_numeral ok hw hr (by rw [hval]; exact hi), hval]
  · obtain ⟨n, h1, h2, h3, h4, h5⟩ := showDouble_numeral hP hf h0
    have hval : F64.ofScaled n.negative 10 n.mantissa n.exponent = x := by
      rw [ofScaled_eq _ h4, round_back hP h0 hm (hs.resolve_left h0) h5, h3, F64.mk'_eta]
    rw [← h2, readDouble_numeral h1 hw hr (by rw [hval]; exact hi), hval]

/-- What is read back after printing, without error, is always the double nearest to a decimal number of `P` digits. -/
theorem read_show_only {P : Nat} (hP : 0 < P) {x y : F64} (hf : x.isFinite = true) (h0 : x.mag ≠ 0) {ws r : Str}
    (hw : ∀ c ∈ ws, isSpace c = true) (hr : Stops r) {old : F64} {s : TextIn}
    (h : TextIn.readDouble { rest := ws ++ (showDouble P x ++ r) } old = (y, s)) (hfail : s.fail = false) :
    ∃ (m : Nat) (j : ℤ), 0 < m ∧ m < 10 ^ P ∧ F64.ofScaled x.neg 10 m j = y := by
  have hA : 0 < F64.fixMag x.mag := Nat.pos_of_ne_zero (fun h => h0 (F64.fixMag_eq_zero.mp h))
  obtain ⟨n, h1, h2, h3, h4, h5⟩ := showDouble_numeral hP hf h0
  obtain ⟨s1, s2, -⟩ := decRound_spec hP hA F64.one1074_pos
  rw [← h2, readDouble_numeral' h1 hw hr] at h
  split at h
  · simp only [Prod.mk.injEq] at h
    rw [← h.2] at hfail
    simp at hfail
  · simp only [Prod.mk.injEq] at h
    generalize decRound P (F64.fixMag x.mag) F64.one1074 = d at *
    have hd : 0 < d.1 := lt_of_lt_of_le (Nat.pow_pos (by norm_num)) s1
    refine ⟨d.1, d.2 - (P - 1 : Nat), hd, s2, ?_⟩
    rw [← h.1, ofScaled_eq _ hd, h3, ofScaled_eq _ h4]
    have e : (F64.scaledNum 10 d.1 (d.2 - (P - 1 : Nat)) : ℚ) / (F64.scaledDen 10 (d.2 - (P - 1 : Nat)) : ℕ)
        = (F64.scaledNum 10 n.mantissa n.exponent : ℚ) / (F64.scaledDen 10 n.exponent : ℕ) := by
      rw [scaled_q, scaled_q, h5, decValue]
    rw [F64.roundMag_congr_q (scaledDen_pos _) (scaledDen_pos _) e]

end Spoc.Text
