import Verif.Model.BigInt.Memory
import Verif.Lemmas.BigInt.Val
import Verif.Lemmas.Widths

/-!
# The functions on buffers do what the functions on lengths of buffers do
-/

namespace LCT.BigInt
open LCT.Out
variable {ε : Type}

theorem fill0_eq (buf : List Nat) : fill0 buf = List.replicate buf.length 0 := by
  unfold fill0
  induction buf with
  | nil => rfl
  | cons b buf ih => rw [List.map_cons, ih]; rfl

@[simp] theorem fill0_length (buf : List Nat) : (fill0 buf).length = buf.length := by rw [fill0_eq, List.length_replicate]

theorem addZipIn_eq (w : Nat) (ss gs rest : List Nat) (c : Bool) :
    (addZipIn w ss gs rest c : Out ε _) = if (addZip w ss gs c).1.length ≤ rest.length
      then .ok ((addZip w ss gs c).1, rest.drop (addZip w ss gs c).1.length, (addZip w ss gs c).2) else .panic := by
  induction ss generalizing gs rest c with
  | nil => cases gs <;> rfl
  | cons s ss ih =>
    cases gs with
    | nil => rfl
    | cons g gs =>
      cases rest with
      | nil => rfl
      | cons r rest =>
        unfold addZipIn addZip
        dsimp only
        rw [ih]
        by_cases h : (addZip w ss gs (carryingAdd w g s c).2).1.length ≤ rest.length
        · rw [if_pos h, if_pos (by simpa using h)]; rfl
        · rw [if_neg h, if_neg (by simpa using h)]; rfl

theorem addPropIn_eq (w : Nat) (gs rest : List Nat) (c : Bool) :
    (addPropIn w gs rest c : Out ε _) = if (addProp w gs c).1.length ≤ rest.length
      then .ok ((addProp w gs c).1, rest.drop (addProp w gs c).1.length, (addProp w gs c).2) else .panic := by
  induction gs generalizing rest c with
  | nil => rfl
  | cons g gs ih =>
    cases rest with
    | nil => rfl
    | cons r rest =>
      unfold addPropIn addProp
      dsimp only
      rw [ih]
      by_cases h : (addProp w gs (carryingAdd w g 0 c).2).1.length ≤ rest.length
      · rw [if_pos h, if_pos (by simpa using h)]; rfl
      · rw [if_neg h, if_neg (by simpa using h)]; rfl

theorem subZipIn_eq (w : Nat) (ss gs rest : List Nat) (c : Bool) :
    (subZipIn w ss gs rest c : Out ε _) = if (subZip w ss gs c).1.length ≤ rest.length
      then .ok ((subZip w ss gs c).1, rest.drop (subZip w ss gs c).1.length, (subZip w ss gs c).2) else .panic := by
  induction ss generalizing gs rest c with
  | nil => cases gs <;> rfl
  | cons s ss ih =>
    cases gs with
    | nil => rfl
    | cons g gs =>
      cases rest with
      | nil => rfl
      | cons r rest =>
        unfold subZipIn subZip
        dsimp only
        rw [ih]
        by_cases h : (subZip w ss gs (borrowingSub w g s c).2).1.length ≤ rest.length
        · rw [if_pos h, if_pos (by simpa using h)]; rfl
        · rw [if_neg h, if_neg (by simpa using h)]; rfl

theorem subPropIn_eq (w : Nat) (gs rest : List Nat) (c : Bool) :
    (subPropIn w gs rest c : Out ε _) = if (subProp w gs c).1.length ≤ rest.length
      then .ok ((subProp w gs c).1, rest.drop (subProp w gs c).1.length, (subProp w gs c).2) else .panic := by
  induction gs generalizing rest c with
  | nil => rfl
  | cons g gs ih =>
    cases rest with
    | nil => rfl
    | cons r rest =>
      unfold subPropIn subProp
      dsimp only
      rw [ih]
      by_cases h : (subProp w gs (borrowingSub w g 0 c).2).1.length ≤ rest.length
      · rw [if_pos h, if_pos (by simpa using h)]; rfl
      · rw [if_neg h, if_neg (by simpa using h)]; rfl

theorem addZip_length (w : Nat) (ss gs : List Nat) (c : Bool) : (addZip w ss gs c).1.length = min ss.length gs.length := by
  induction ss generalizing gs c with
  | nil => cases gs <;> simp [addZip]
  | cons s ss ih =>
    cases gs with
    | nil => simp [addZip]
    | cons g gs => simp [addZip, ih]

theorem subZip_length (w : Nat) (ss gs : List Nat) (c : Bool) : (subZip w ss gs c).1.length = min ss.length gs.length := by
  induction ss generalizing gs c with
  | nil => cases gs <;> simp [subZip]
  | cons s ss ih =>
    cases gs with
    | nil => simp [subZip]
    | cons g gs => simp [subZip, ih]

theorem subProp_length (w : Nat) (gs : List Nat) (c : Bool) : (subProp w gs c).1.length = gs.length := by
  induction gs generalizing c with
  | nil => rfl
  | cons g gs ih => simp [subProp, ih]

/-- What the comparison says about the lengths. -/
theorem cmpDigits_lengths {m : Build} {a b : List Nat} {o : Ordering} (h : (cmpDigits m a b : Out ε _) = .ok o) :
    (o = .lt → a.length ≤ b.length) ∧ (o ≠ .lt → b.length ≤ a.length) := by
  unfold cmpDigits at h
  cases h1 : (dassert m (isValid a) : Out ε _) with
  | err _ => rw [h1] at h; cases h
  | panic => rw [h1] at h; cases h
  | hang => rw [h1] at h; cases h
  | ok _ =>
    rw [h1, bind_ok] at h
    cases h2 : (dassert m (isValid b) : Out ε _) with
    | err _ => rw [h2] at h; cases h
    | panic => rw [h2] at h; cases h
    | hang => rw [h2] at h; cases h
    | ok _ =>
      rw [h2, bind_ok] at h
      split at h
      · rename_i hc
        rw [Nat.compare_eq_gt] at hc
        cases h
        exact ⟨nofun, fun _ => Nat.le_of_lt hc⟩
      · rename_i hc
        rw [Nat.compare_eq_lt] at hc
        cases h
        exact ⟨fun _ => Nat.le_of_lt hc, fun h => absurd rfl h⟩
      · rename_i hc
        rw [Nat.compare_eq_eq] at hc
        exact ⟨fun _ => Nat.le_of_eq hc, fun _ => Nat.le_of_eq hc.symm⟩

theorem copyAt_zeros (done : List Nat) (n l : Nat) (src : List Nat) (h1 : done.length ≤ n) (h2 : done.length ≤ l) (i : Nat) (hi : i ≤ done.length)
    (hs : src.length = l - i) :
    (copyAt (done ++ List.replicate (n - done.length) 0) i l src : Out ε _) = writeBuf n (done.take i ++ src) := by
  have hlen : (done ++ List.replicate (n - done.length) 0).length = n := by simp; omega
  have hlen2 : (done.take i ++ src).length = l := by simp; omega
  unfold copyAt writeBuf
  rw [hlen, hlen2]
  by_cases hl : l ≤ n
  · rw [if_pos hl]
    have e1 : decide (i ≤ l ∧ l ≤ n) = true := by rw [decide_eq_true_eq]; omega
    have e2 : decide (src.length = l - i) = true := by rw [decide_eq_true_eq]; exact hs
    rw [e1, e2]
    show Out.ok _ = Out.ok _
    congr 1
    rw [List.take_append_of_le_length hi, List.drop_append, List.drop_of_length_le h2, List.nil_append, List.drop_replicate]
    congr 2
    omega
  · rw [if_neg hl]
    have e1 : decide (i ≤ l ∧ l ≤ n) = false := by rw [decide_eq_false_iff_not]; omega
    rw [e1]
    rfl

theorem addDigitsIn_eq (m : Build) (w : Nat) (a b buf : List Nat) : (addDigitsIn m w a b buf : Out ε _) = addDigits m w a b buf.length := by
  unfold addDigitsIn addDigits
  rw [fill0_eq]
  generalize buf.length = n
  congr 1; funext _; congr 1; funext _; congr 1; funext _
  cases hc : (cmpDigits m a b : Out ε _) with
  | err _ => rfl
  | panic => rfl
  | hang => rfl
  | ok o =>
    obtain ⟨hl, hg⟩ := cmpDigits_lengths hc
    rw [bind_ok, bind_ok]
    obtain ⟨g, s, e, hgs⟩ : ∃ g s, (if (o == .lt) = true then (b, a) else (a, b)) = (g, s) ∧ s.length ≤ g.length := by
      by_cases ho : o = .lt
      · exact ⟨b, a, by rw [ho]; rfl, hl ho⟩
      · exact ⟨a, b, by rw [if_neg (by simpa using ho)], hg ho⟩
    rw [e]
    dsimp only
    rw [addZipIn_eq]
    have hz := addZip_length w s g false
    rw [Nat.min_eq_left hgs] at hz
    obtain ⟨⟨out, carry⟩, hz'⟩ : ∃ p, p = addZip w s g false := ⟨_, rfl⟩
    rw [← hz'] at hz ⊢
    dsimp only at hz ⊢
    rw [List.length_replicate]
    cases carry with
    | false =>
      by_cases hn : out.length ≤ n
      · rw [if_pos hn, bind_ok]
        dsimp only
        rw [if_neg nofun, if_neg nofun, List.drop_replicate, ← hz,
          copyAt_zeros out n g.length (g.drop out.length) hn (by omega) _ (Nat.le_refl _) (by rw [List.length_drop]), List.take_length]
      · rw [if_neg hn]
        rw [if_neg nofun]
        unfold writeBuf
        rw [if_neg (by rw [List.length_append]; omega)]
        rfl
    | true =>
      rw [if_pos rfl]
      obtain ⟨⟨out2, carry2⟩, hp⟩ : ∃ p, p = addProp w (g.drop s.length) true := ⟨_, rfl⟩
      rw [← hp]
      dsimp only
      by_cases hn : out.length ≤ n
      · rw [if_pos hn, bind_ok]
        dsimp only
        rw [if_pos rfl, addPropIn_eq, ← hp, List.drop_replicate, List.length_replicate]
        dsimp only
        by_cases hn2 : out2.length ≤ n - out.length
        · rw [if_pos hn2, bind_ok]
          dsimp only
          rw [List.drop_replicate]
          cases carry2 with
          | false =>
            rw [if_neg nofun, if_neg nofun]
            unfold writeBuf
            rw [if_pos (by rw [List.length_append]; omega), bind_ok, List.length_append, Nat.sub_sub]
          | true =>
            rw [if_pos rfl, if_pos rfl]
            unfold writeBuf
            cases hr : n - out.length - out2.length with
            | zero => rw [if_neg (by simp only [List.length_append, List.length_cons, List.length_nil]; omega)]; rfl
            | succ k =>
              rw [if_pos (by simp only [List.length_append, List.length_cons, List.length_nil]; omega), bind_ok]
              show Out.ok _ = Out.ok _
              congr 2
              have hk : n - (out ++ out2 ++ [1]).length = k := by
                simp only [List.length_append, List.length_cons, List.length_nil]; omega
              rw [hk, List.append_assoc _ [1]]
              rfl
        · rw [if_neg hn2]
          cases carry2 with
          | false =>
            rw [if_neg nofun]
            unfold writeBuf
            rw [if_neg (by rw [List.length_append]; omega)]
            rfl
          | true =>
            rw [if_pos rfl]
            unfold writeBuf
            rw [if_neg (by simp only [List.length_append, List.length_cons, List.length_nil]; omega)]
            rfl
      · rw [if_neg hn]
        cases carry2 with
        | false =>
          rw [if_neg nofun]
          unfold writeBuf
          rw [if_neg (by rw [List.length_append]; omega)]
          rfl
        | true =>
          rw [if_pos rfl]
          unfold writeBuf
          rw [if_neg (by simp only [List.length_append, List.length_cons, List.length_nil]; omega)]
          rfl

theorem subDigitsIn_eq (m : Build) (w : Nat) (a b buf : List Nat) : (subDigitsIn m w a b buf : Out ε _) = subDigits m w a b buf.length := by
  unfold subDigitsIn subDigits
  rw [fill0_eq]
  generalize buf.length = n
  congr 1; funext _; congr 1; funext _; congr 1; funext _
  cases hc : (cmpDigits m a b : Out ε _) with
  | err _ => rfl
  | panic => rfl
  | hang => rfl
  | ok o =>
    obtain ⟨-, hg⟩ := cmpDigits_lengths hc
    rw [bind_ok, bind_ok]
    cases o with
    | eq => rfl
    | lt => rfl
    | gt =>
      dsimp only
      have hba := hg nofun
      by_cases hae : a = []
      · subst hae; rfl
      by_cases hbe : b = []
      · subst hbe
        unfold lenDigitsM
        cases a with
        | nil => exact absurd rfl hae
        | cons => rfl
      have la : (lenDigitsM a : Out ε _) = .ok (lenDigits a) := by unfold lenDigitsM; cases a with | nil => exact absurd rfl hae | cons => rfl
      have lb : (lenDigitsM b : Out ε _) = .ok (lenDigits b) := by unfold lenDigitsM; cases b with | nil => exact absurd rfl hbe | cons => rfl
      have lbl := lenDigits_le hbe
      rw [la, lb]
      simp only [bind_ok]
      rw [subZipIn_eq]
      have hz := subZip_length w b a false
      rw [Nat.min_eq_left hba] at hz
      obtain ⟨⟨out, borrow⟩, hz'⟩ : ∃ p, p = subZip w b a false := ⟨_, rfl⟩
      rw [← hz'] at hz ⊢
      dsimp only at hz ⊢
      rw [List.length_replicate]
      cases borrow with
      | true =>
        rw [if_pos rfl]
        obtain ⟨⟨out2, borrow2⟩, hp⟩ : ∃ p, p = subProp w (a.drop (lenDigits b)) true := ⟨_, rfl⟩
        by_cases hn : out.length ≤ n
        · rw [if_pos hn, bind_ok]
          dsimp only
          rw [if_pos rfl, subPropIn_eq, ← hp, List.drop_replicate, List.length_replicate]
          dsimp only
          by_cases hn2 : out2.length ≤ n - out.length
          · rw [if_pos hn2, bind_ok]
            dsimp only
            unfold writeBuf
            rw [if_pos (by rw [List.length_append]; omega), bind_ok, List.drop_replicate, List.length_append, Nat.sub_sub]
          · rw [if_neg hn2]
            unfold writeBuf
            rw [if_neg (by rw [List.length_append]; omega)]
            rfl
        · rw [if_neg hn, ← hp]
          dsimp only
          unfold writeBuf
          rw [if_neg (by rw [List.length_append]; omega)]
          rfl
      | false =>
        by_cases hn : out.length ≤ n
        · rw [if_pos hn, bind_ok]
          dsimp only
          rw [if_neg Bool.false_ne_true, if_neg Bool.false_ne_true, List.drop_replicate]
          by_cases hal : a.length = lenDigits a
          · rw [decide_eq_true hal, ← hal, copyAt_zeros out n a.length (a.drop (lenDigits b)) hn (by omega) _ (by omega) (by rw [List.length_drop])]
            rfl
          · rw [decide_eq_false hal]
            unfold copyAt
            by_cases hij : lenDigits b ≤ lenDigits a ∧ lenDigits a ≤ (out ++ List.replicate (n - out.length) 0).length
            · have : decide ((List.drop (lenDigits b) a).length = lenDigits a - lenDigits b) = false := by
                rw [decide_eq_false_iff_not, List.length_drop]
                have := lenDigits_le hae
                omega
              rw [this, decide_eq_true hij]
              rfl
            · rw [decide_eq_false hij]
              rfl
        · rw [if_neg hn, if_neg Bool.false_ne_true]
          unfold writeBuf
          rw [if_neg (by rw [List.length_append, List.length_take, List.length_drop]; omega)]
          cases decide (a.length = lenDigits a) <;> rfl

theorem mulDigitsIn_eq (m : Build) (w : Nat) (a b buf : List Nat) : (mulDigitsIn m w a b buf : Out ε _) = mulDigits m w a b buf.length := by
  unfold mulDigitsIn mulDigits
  rw [fill0_eq]

theorem divSmallIn_eq (w d : Nat) (xs places : List Nat) (r : Nat) (h : places.length = xs.length) : divSmallIn w d xs places r = divSmall w d xs r := by
  induction xs generalizing places r with
  | nil => cases places with
    | nil => rfl
    | cons => cases h
  | cons x xs ih => cases places with
    | nil => cases h
    | cons p places =>
      unfold divSmallIn divSmall
      dsimp only
      rw [ih _ _ (Nat.succ.inj h)]

theorem divSmall_length (w d : Nat) (xs : List Nat) (r : Nat) : (divSmall w d xs r).1.length = xs.length := by
  induction xs generalizing r with
  | nil => rfl
  | cons x xs ih => simp [divSmall, ih]

theorem divLoopIn_eq (m : Build) (w : Nat) (divisor : List Nat) (d d0 d1 : Nat) (j : Nat) (st qs places : List Nat) (h : places.length = j + 1) :
    (do
      let (st, places) ← divLoopIn m w divisor d d0 d1 j st places
      return (st, places.reverse ++ qs) : Out ε _) = divLoop m w divisor d d0 d1 j st qs := by
  induction j generalizing st qs places with
  | zero =>
    cases places with
    | nil => cases h
    | cons p places =>
      have : places = [] := List.length_eq_zero_iff.mp (Nat.succ.inj h)
      subst this
      unfold divLoopIn divLoop
      cases (divAt m w divisor d d0 d1 0 st : Out ε _) <;> rfl
  | succ j ih =>
    cases places with
    | nil => cases h
    | cons p places =>
      unfold divLoopIn divLoop
      cases (divAt m w divisor d d0 d1 (j + 1) st : Out ε _) with
      | err _ => rfl
      | panic => rfl
      | hang => rfl
      | ok x =>
        obtain ⟨st', q⟩ := x
        simp only [bind_ok]
        rw [← ih st' (q :: qs) places (Nat.succ.inj h)]
        cases (divLoopIn m w divisor d d0 d1 j st' places : Out ε _) with
        | err _ => rfl
        | panic => rfl
        | hang => rfl
        | ok y =>
          show Out.ok _ = Out.ok _
          rw [List.reverse_cons, List.append_assoc]
          rfl

theorem divLoop_length {m : Build} {w : Nat} {divisor : List Nat} {d d0 d1 : Nat} {j : Nat} {st qs st' qs' : List Nat}
    (h : (divLoop m w divisor d d0 d1 j st qs : Out ε _) = .ok (st', qs')) : qs'.length = qs.length + j + 1 := by
  induction j generalizing st qs with
  | zero =>
    unfold divLoop at h
    cases e : (divAt m w divisor d d0 d1 0 st : Out ε _) with
    | ok x => rw [e] at h; cases h; rfl
    | err _ => rw [e] at h; cases h
    | panic => rw [e] at h; cases h
    | hang => rw [e] at h; cases h
  | succ j ih =>
    unfold divLoop at h
    cases e : (divAt m w divisor d d0 d1 (j + 1) st : Out ε _) with
    | ok x => rw [e, bind_ok] at h; have := ih h; rw [this, List.length_cons]; omega
    | err _ => rw [e] at h; cases h
    | panic => rw [e] at h; cases h
    | hang => rw [e] at h; cases h

theorem storeAt_zeros (n x : Nat) : (storeAt (List.replicate n 0) 0 x : Out ε _) = writeBuf n [x] := by
  cases n with
  | zero => rfl
  | succ n =>
    unfold storeAt writeBuf
    rw [if_pos (by simp)]
    have : decide (0 < (List.replicate (n + 1) 0).length) = true := by simp
    rw [this]
    rfl

theorem divRemDigitsIn_eq (m : Build) (w : Nat) (dividend divisor quotient remainder : List Nat) (hq : dividend.length ≤ quotient.length) :
    (divRemDigitsIn m w dividend divisor quotient remainder : Out ε _) =
      divRemDigits m w dividend divisor quotient.length remainder.length := by
  unfold divRemDigitsIn divRemDigits
  rw [fill0_eq, fill0_eq]
  generalize quotient.length = nq at hq ⊢
  generalize remainder.length = nr
  congr 1; funext _; congr 1; funext _; congr 1; funext _; congr 1; funext _
  dsimp only
  congr 1; funext _; congr 1; funext _; congr 1; funext z
  cases z with
  | true => rfl
  | false =>
    rw [if_neg Bool.false_ne_true, if_neg Bool.false_ne_true]
    congr 1; funext o
    cases o with
    | eq => dsimp only; rw [storeAt_zeros]
    | lt =>
      dsimp only
      have := copyAt_zeros (ε := ε) [] nr dividend.length dividend (Nat.zero_le _) (Nat.zero_le _) 0 (Nat.le_refl _) rfl
      rw [List.nil_append, List.take_nil, List.nil_append, List.length_nil, Nat.sub_zero] at this
      rw [this]
    | gt =>
      dsimp only
      split
      · rename_i d
        rw [List.length_replicate, decide_eq_true hq]
        have hp : ((List.replicate nq 0).take dividend.length).reverse.length = dividend.reverse.length := by simp; omega
        rw [divSmallIn_eq _ _ _ _ _ hp]
        have hl := divSmall_length w d dividend.reverse 0
        rw [List.length_reverse] at hl
        have hw : (writeBuf nq (divSmall w d dividend.reverse 0).1.reverse : Out ε _) =
            .ok ((divSmall w d dividend.reverse 0).1.reverse ++ List.replicate (nq - dividend.length) 0) := by
          unfold writeBuf
          rw [List.length_reverse, hl, if_pos hq]
        rw [rassert_true, bind_ok, storeAt_zeros, List.drop_replicate]
        show _ = (writeBuf nq (divSmall w d dividend.reverse 0).1.reverse >>= _)
        rw [hw, bind_ok]
      · rename_i hne
        split
        · exact absurd rfl (hne _)
        unfold divKnuth
        dsimp only
        cases hy : divisor.reverse with
        | nil => rfl
        | cons yt top =>
          have hpos : 0 < divisor.length := by
            rw [← List.length_reverse, hy]; exact Nat.succ_pos _
          congr 1; funext y0; congr 1; funext y1
          by_cases hdd : divisor.length ≤ dividend.length
          · have hk : dividend.length - divisor.length + 1 ≤ nq := by omega
            rw [decide_eq_true hdd, rassert_true, bind_ok, bind_ok, List.length_replicate, decide_eq_true hk, rassert_true, bind_ok]
            congr 1; funext _
            have hp : ((List.replicate nq 0).take (dividend.length - divisor.length + 1)).reverse.length = dividend.length - divisor.length + 1 := by
              simp; omega
            rw [← divLoopIn_eq m w divisor _ _ _ _ _ [] _ hp]
            have hq' := @fun st' qs' => divLoop_length (ε := ε) (st' := st') (qs' := qs') (m := m) (w := w) (divisor := divisor) (d := leadingZeros w y0)
              (d0 := normDigit w (leadingZeros w y0) y0 y1) (d1 := normDigit w (leadingZeros w y0) y1 ((yt :: top).getD 2 0))
              (j := dividend.length - divisor.length) (st := dividend ++ [0, 0]) (qs := [])
            rw [← divLoopIn_eq m w divisor _ _ _ _ _ [] _ hp] at hq'
            cases hd : (divLoopIn m w divisor (leadingZeros w y0) (normDigit w (leadingZeros w y0) y0 y1)
                (normDigit w (leadingZeros w y0) y1 ((yt :: top).getD 2 0)) (dividend.length - divisor.length) (dividend ++ [0, 0])
                ((List.replicate nq 0).take (dividend.length - divisor.length + 1)).reverse : Out ε _) with
            | err _ => rfl
            | panic => rfl
            | hang => rfl
            | ok x =>
              obtain ⟨st, places⟩ := x
              rw [hd] at hq'
              have hl := hq' st (places.reverse ++ []) rfl
              rw [List.append_nil, List.length_reverse, List.length_nil, Nat.zero_add] at hl
              rw [bind_ok, bind_ok]
              show _ = (writeBuf nq (places.reverse ++ []) >>= _)
              have hw : (writeBuf nq (places.reverse ++ []) : Out ε _) =
                  .ok (places.reverse ++ List.replicate (nq - (dividend.length - divisor.length + 1)) 0) := by
                unfold writeBuf
                rw [List.append_nil, List.length_reverse, hl, if_pos hk]
              rw [hw, bind_ok, List.drop_replicate, List.length_replicate]
          · rw [decide_eq_false hdd]; rfl

/-! ## The length of a buffer does not change -/

/-- What the call returns, if it returns, satisfies `P`. -/
def Ens {α : Type} (P : α → Prop) (x : Out ε α) : Prop := ∀ a, x = .ok a → P a

theorem Ens.bind {α β : Type} {P : α → Prop} {Q : β → Prop} {x : Out ε α} {f : α → Out ε β} (h : Ens P x) (hf : ∀ a, P a → Ens Q (f a)) :
    Ens Q (x >>= f) := by
  intro b e
  cases x with
  | ok a => exact hf a (h a rfl) b e
  | err _ => cases e
  | panic => cases e
  | hang => cases e

theorem Ens.any {α : Type} (x : Out ε α) : Ens (fun _ => True) x := fun _ _ => trivial

theorem Ens.then {α β : Type} {Q : β → Prop} {x : Out ε α} {f : α → Out ε β} (hf : ∀ a, Ens Q (f a)) : Ens Q (x >>= f) :=
  (Ens.any x).bind fun a _ => hf a

theorem Ens.ret {α : Type} {P : α → Prop} {a : α} (h : P a) : Ens P (pure a : Out ε α) := by
  intro b e; cases e; exact h

theorem Ens.panic {α : Type} {P : α → Prop} : Ens P (.panic : Out ε α) := by intro b e; cases e

theorem writeBuf_len (n : Nat) (out : List Nat) : Ens (fun r => r.length = n) (writeBuf n out : Out ε _) := by
  intro r h
  unfold writeBuf at h
  split at h
  · cases h; simp; omega
  · cases h

theorem addDigits_len (m : Build) (w : Nat) (a b : List Nat) (n : Nat) : Ens (fun r => r.1.length = n) (addDigits m w a b n : Out ε _) := by
  unfold addDigits
  refine Ens.then fun _ => Ens.then fun _ => Ens.then fun _ => Ens.then fun o => ?_
  dsimp only
  generalize (if (o == Ordering.lt) = true then (b, a) else (a, b)) = gs
  obtain ⟨greater, smaller⟩ := gs
  dsimp only
  split
  · split
    · exact (writeBuf_len _ _).bind fun _ h => Ens.ret h
    · exact (writeBuf_len _ _).bind fun _ h => Ens.ret h
  · exact (writeBuf_len _ _).bind fun _ h => Ens.ret h

theorem subDigits_len (m : Build) (w : Nat) (a b : List Nat) (n : Nat) : Ens (fun r => r.1.length = n) (subDigits m w a b n : Out ε _) := by
  unfold subDigits
  refine Ens.then fun _ => Ens.then fun _ => Ens.then fun _ => Ens.then fun o => ?_
  cases o with
  | eq => exact Ens.ret (by simp)
  | lt => exact Ens.panic
  | gt =>
    refine Ens.then fun _ => Ens.then fun _ => ?_
    dsimp only
    split
    · exact (writeBuf_len _ _).bind fun _ h => Ens.then fun _ => Ens.ret h
    · exact Ens.then fun _ => (writeBuf_len _ _).bind fun _ h => Ens.then fun _ => Ens.ret h

theorem mulRow_len (m : Build) (w s : Nat) (gs rs : List Nat) (c : Nat) : Ens (fun r => r.1.length = rs.length) (mulRow m w s gs rs c : Out ε _) := by
  induction gs generalizing rs c with
  | nil => unfold mulRow; exact Ens.ret rfl
  | cons g gs ih =>
    cases rs with
    | nil => unfold mulRow; exact Ens.ret rfl
    | cons r rs =>
      unfold mulRow
      refine Ens.then fun _ => Ens.then fun _ => Ens.then fun t => (ih rs _).bind fun p h => Ens.ret ?_
      simpa using h

theorem mulRows_len (m : Build) (w : Nat) (greater ss res : List Nat) : Ens (fun r => r.length = res.length) (mulRows m w greater ss res : Out ε _) := by
  induction ss generalizing res with
  | nil => unfold mulRows; exact Ens.ret rfl
  | cons s ss ih =>
    unfold mulRows
    intro r hr
    by_cases hl : greater.length + 1 ≤ res.length
    · rw [decide_eq_true hl, rassert_true, bind_ok] at hr
      revert r
      show Ens _ _
      refine (mulRow_len m w s greater (res.take (greater.length + 1)) 0).bind fun p hp => ?_
      obtain ⟨win, carry⟩ := p
      dsimp only at hp ⊢
      rw [List.length_take, Nat.min_eq_left hl] at hp
      have hw : ∀ win' : List Nat, win'.length = greater.length + 1 → Ens (fun r => r.length = res.length)
          (match win' ++ res.drop (greater.length + 1) with
            | [] => .panic
            | r :: rest => do
              let rest ← mulRows m w greater ss rest
              return r :: rest : Out ε _) := by
        intro win' hw'
        have hlen : (win' ++ res.drop (greater.length + 1)).length = res.length := by simp; omega
        generalize win' ++ res.drop (greater.length + 1) = l at hlen
        cases l with
        | nil => exact Ens.panic
        | cons x l => exact (ih l).bind fun _ h => Ens.ret (by rw [← hlen]; simpa using h)
      by_cases hc : carry > 0
      · rw [if_pos hc]; exact hw _ (by simp; omega)
      · rw [if_neg hc]; exact hw _ hp
    · rw [decide_eq_false hl] at hr; cases hr

theorem mulDigits_len (m : Build) (w : Nat) (a b : List Nat) (n : Nat) : Ens (fun r => r.1.length = n) (mulDigits m w a b n : Out ε _) := by
  unfold mulDigits
  have key : ∀ za zb : Bool, Ens (fun r => r.1.length = n) (if (za || zb) = true then pure (List.replicate n 0, 1)
      else do
        let ord ← cmpDigits m a b
        let (greater, smaller) := if ord == .lt then (b, a) else (a, b)
        let buf ← mulRows m w greater smaller (List.replicate n 0)
        let len ← lenDigitsM buf
        return (buf, len) : Out ε _) := by
    intro za zb
    split
    · exact Ens.ret (by simp)
    · refine Ens.then fun _ => (mulRows_len _ _ _ _ _).bind fun _ h => Ens.then fun _ => Ens.ret ?_
      simpa using h
  refine Ens.then fun _ => Ens.then fun _ => Ens.then fun _ => Ens.then fun za => ?_
  cases za
  · exact Ens.then fun zb => key false zb
  · exact Ens.then fun zb => key true zb

theorem divRemDigits_len (m : Build) (w : Nat) (a b : List Nat) (nq nr : Nat) :
    Ens (fun r => r.1.1.length = nq ∧ r.2.1.length = nr) (divRemDigits m w a b nq nr : Out ε _) := by
  unfold divRemDigits
  refine Ens.then fun _ => Ens.then fun _ => Ens.then fun _ => Ens.then fun _ => Ens.then fun _ => Ens.then fun _ => Ens.then fun _ => ?_
  split
  · exact Ens.ret (by simp)
  · refine Ens.then fun o => ?_
    cases o with
    | eq => exact (writeBuf_len _ _).bind fun _ h => Ens.ret ⟨h, by simp⟩
    | lt => exact (writeBuf_len _ _).bind fun _ h => Ens.ret ⟨by simp, h⟩
    | gt =>
      dsimp only
      split
      · exact (writeBuf_len _ _).bind fun _ h => (writeBuf_len _ _).bind fun _ h' => Ens.then fun _ => Ens.ret ⟨h, h'⟩
      · unfold divKnuth
        refine Ens.then fun _ => Ens.then fun _ => Ens.then fun _ => Ens.then fun _ => Ens.then fun p => (writeBuf_len _ _).bind fun _ h => ?_
        intro r hr
        by_cases hl : nr ≤ p.1.length
        · rw [decide_eq_true hl, rassert_true, bind_ok] at hr
          revert r
          show Ens _ _
          exact Ens.then fun _ => Ens.then fun _ => Ens.ret ⟨h, by simp; omega⟩
        · rw [decide_eq_false hl] at hr; cases hr

theorem Ens.agree {α : Type} {P : α → Prop} {x : Out ε α} (h : Ens P x) : Spec.Agree (fun a b => a = b ∧ P b) x x := by
  cases x with
  | ok a => exact .ok ⟨rfl, h a rfl⟩
  | err e => exact .err e
  | panic => exact .panic
  | hang => exact .hang

theorem Ens.agree_eq {α : Type} {P : α → Prop} {x y : Out ε α} (h : Ens P y) (e : x = y) : Spec.Agree (fun a b => a = b ∧ P b) x y := e ▸ h.agree

theorem sliceTo_len (buf : List Nat) (len : Nat) : Ens (fun r => r.length = len ∧ len ≤ buf.length) (sliceTo buf len : Out ε _) := by
  intro r h
  unfold sliceTo at h
  by_cases hl : len ≤ buf.length
  · rw [decide_eq_true hl] at h; cases h; exact ⟨by simp; omega, hl⟩
  · rw [decide_eq_false hl] at h; cases h

theorem copyFrom_eq (dst src : List Nat) (len : Nat) : (copyFrom dst src len : Out ε _) = copyBuf dst.length src len := by
  unfold copyFrom copyBuf
  cases e : (sliceTo src len : Out ε _) with
  | ok s =>
    rw [bind_ok, bind_ok, fill0_eq]
    have := copyAt_zeros (ε := ε) [] dst.length len s (Nat.zero_le _) (Nat.zero_le _) 0 (Nat.le_refl _)
      ((sliceTo_len src len s e).1.trans (Nat.sub_zero _).symm)
    rw [List.nil_append, List.take_nil, List.nil_append, List.length_nil, Nat.sub_zero] at this
    exact this
  | err _ => rfl
  | panic => rfl
  | hang => rfl

/-! ## Greatest common divisor -/

/-- The lengths of the scratch memory. -/
structure Scratch.Fits (n nb : Nat) (z : Scratch) : Prop where
  x1 : z.x1.length = n + 1
  y2 : z.y2.length = n + 1
  t1 : z.t1.length = n + 1
  t2 : z.t2.length = n + 1
  q : z.q.length = n
  qm : z.qm.length = n * 2
  qt : z.qt.length = n * 2
  rem : z.rem.length = nb

open Spec (Agree)

theorem mulSubUnsignedIn_agree (m : Build) (w n x : Nat) (d1 : List Nat) (y : Nat) (d2 x1 y2 r : List Nat) (h1 : x1.length = n) (h2 : y2.length = n)
    (hr : r.length = n) :
    Agree (fun p q => (p.1.length = n ∧ p.2.1.length = n ∧ p.2.2.1.length = n) ∧ p.2.2 = q) (mulSubUnsignedIn m w x d1 y d2 x1 y2 r : Out ε _)
      (mulSubUnsigned m w n x d1 y d2) := by
  unfold mulSubUnsignedIn mulSubUnsigned
  rw [mulDigitsIn_eq, h1]
  refine (mulDigits_len m w [x] d1 n).agree.bind fun p q h => ?_
  obtain ⟨rfl, hp⟩ := h
  obtain ⟨p1, l1⟩ := p
  dsimp only at hp ⊢
  rw [mulDigitsIn_eq, h2]
  refine (mulDigits_len m w [y] d2 n).agree.bind fun p q h => ?_
  obtain ⟨rfl, hp'⟩ := h
  obtain ⟨p2, l2⟩ := p
  dsimp only at hp' ⊢
  refine Agree.refl.bind fun s1 _ h => ?_
  subst h
  refine Agree.refl.bind fun s2 _ h => ?_
  subst h
  rw [subDigitsIn_eq, hr]
  have := (subDigits_len (ε := ε) m w s1 s2 n).agree.bind (S := fun p q => (p.1.length = n ∧ p.2.1.length = n ∧ p.2.2.1.length = n) ∧ p.2.2 = q)
    (f := fun p => pure (p1, p2, p.1, p.2)) (g := fun p => pure p) (fun p q h => by
      obtain ⟨rfl, h⟩ := h
      exact .ok ⟨⟨hp, hp', h⟩, rfl⟩)
  have e : ∀ x : Out ε (List Nat × Nat), (x >>= fun p => pure p) = x := by intro x; cases x <;> rfl
  rw [e] at this
  exact this

theorem signedSubIn_agree (m : Build) (w n : Nat) (s1 : List Nat) (g1 : Sign) (s2 : List Nat) (g2 : Sign) (r : List Nat) (hr : r.length = n) :
    Agree (fun p q => p = q ∧ p.1.length = n) (signedSubIn m w s1 g1 s2 g2 r : Out ε _) (signedSub m w n s1 g1 s2 g2) := by
  unfold signedSubIn signedSub
  split
  · rw [addDigitsIn_eq, hr]
    refine (addDigits_len m w _ _ n).agree.bind fun p q h => ?_
    obtain ⟨rfl, hp⟩ := h
    exact .ok ⟨rfl, hp⟩
  · refine Agree.refl.bind fun o _ h => ?_
    subst h
    cases o with
    | lt =>
      dsimp only
      rw [subDigitsIn_eq, hr]
      refine (subDigits_len m w _ _ n).agree.bind fun p q h => ?_
      obtain ⟨rfl, hp⟩ := h
      exact .ok ⟨rfl, hp⟩
    | eq => 
      dsimp only
      rw [fill0_eq, hr]
      exact .ok ⟨rfl, by simp⟩
    | gt =>
      dsimp only
      rw [subDigitsIn_eq, hr]
      refine (subDigits_len m w _ _ n).agree.bind fun p q h => ?_
      obtain ⟨rfl, hp⟩ := h
      exact .ok ⟨rfl, hp⟩

theorem mulSubSignedIn_agree (m : Build) (w n x : Nat) (d1 : List Nat) (g1 : Sign) (y : Nat) (d2 : List Nat) (g2 : Sign) (x1 y2 r : List Nat)
    (h1 : x1.length = n) (h2 : y2.length = n) (hr : r.length = n) :
    Agree (fun p q => (p.1.length = n ∧ p.2.1.length = n ∧ p.2.2.1.length = n) ∧ p.2.2 = q)
      (mulSubSignedIn m w x d1 g1 y d2 g2 x1 y2 r : Out ε _) (mulSubSigned m w n x d1 g1 y d2 g2) := by
  unfold mulSubSignedIn mulSubSigned
  rw [mulDigitsIn_eq, h1]
  refine (mulDigits_len m w [x] d1 n).agree.bind fun p q h => ?_
  obtain ⟨rfl, hp⟩ := h
  obtain ⟨p1, l1⟩ := p
  dsimp only at hp ⊢
  rw [mulDigitsIn_eq, h2]
  refine (mulDigits_len m w [y] d2 n).agree.bind fun p q h => ?_
  obtain ⟨rfl, hp'⟩ := h
  obtain ⟨p2, l2⟩ := p
  dsimp only at hp' ⊢
  refine Agree.refl.bind fun s1 _ h => ?_
  subst h
  refine Agree.refl.bind fun s2 _ h => ?_
  subst h
  have := (signedSubIn_agree (ε := ε) m w n s1 g1 s2 g2 r hr).bind
    (S := fun p q => (p.1.length = n ∧ p.2.1.length = n ∧ p.2.2.1.length = n) ∧ p.2.2 = q)
    (f := fun p => pure (p1, p2, p.1, p.2)) (g := fun p => pure p) (fun p q h => by
      obtain ⟨rfl, h⟩ := h
      exact .ok ⟨⟨hp, hp', h⟩, rfl⟩)
  have e : ∀ x : Out ε (List Nat × Nat × Sign), (x >>= fun p => pure p) = x := by intro x; cases x <;> rfl
  rw [e] at this
  exact this

/-- The relation kept by the loop: the scratch memory has the right lengths, and so has `a`. -/
def Kept (n nb : Nat) (p : GcdSt × Scratch) (s : GcdSt) : Prop := p.1 = s ∧ p.2.Fits n nb ∧ s.a.length = n

theorem copyBuf_len (n : Nat) (src : List Nat) (len : Nat) : Ens (fun r => r.length = n) (copyBuf n src len : Out ε _) :=
  Ens.then fun _ => writeBuf_len _ _

theorem dpccABIn_agree (m : Build) (w n nb : Nat) (d : Dpcc) (s : GcdSt) (z : Scratch) (hz : z.Fits n nb) (ha : s.a.length = n) :
    Agree (Kept n nb) (dpccABIn m w d s z : Out ε _) (dpccAB m w n d s) := by
  unfold dpccABIn dpccAB
  refine Agree.refl.bind fun a _ h => ?_
  subst h
  refine Agree.refl.bind fun b _ h => ?_
  subst h
  by_cases hd : d.odd = true
  · simp only [if_pos hd]
    refine (mulSubUnsignedIn_agree m w _ _ _ _ _ _ _ _ hz.x1 hz.y2 hz.t1).bind fun p q h => ?_
    obtain ⟨x1, y2, t1, l1⟩ := p
    obtain ⟨⟨h1, h2, h3⟩, rfl⟩ := h
    dsimp only at h1 h2 h3 ⊢
    refine (mulSubUnsignedIn_agree m w _ _ _ _ _ _ _ _ h1 h2 hz.t2).bind fun p q h => ?_
    obtain ⟨x1', y2', t2, l2⟩ := p
    obtain ⟨⟨h1', h2', h4⟩, rfl⟩ := h
    dsimp only at h1' h2' h4 ⊢
    rw [copyFrom_eq, copyFrom_eq]
    refine (copyBuf_len _ _ _).agree.bind fun a' _ h => ?_
    obtain ⟨rfl, hl⟩ := h
    refine Agree.refl.bind fun b' _ h => ?_
    subst h
    exact .ok ⟨rfl, ⟨h1', h2', h3, h4, hz.q, hz.qm, hz.qt, hz.rem⟩, hl.trans ha⟩
  · simp only [if_neg hd]
    refine (mulSubUnsignedIn_agree m w _ _ _ _ _ _ _ _ hz.x1 hz.y2 hz.t1).bind fun p q h => ?_
    obtain ⟨x1, y2, t1, l1⟩ := p
    obtain ⟨⟨h1, h2, h3⟩, rfl⟩ := h
    dsimp only at h1 h2 h3 ⊢
    refine (mulSubUnsignedIn_agree m w _ _ _ _ _ _ _ _ h1 h2 hz.t2).bind fun p q h => ?_
    obtain ⟨x1', y2', t2, l2⟩ := p
    obtain ⟨⟨h1', h2', h4⟩, rfl⟩ := h
    dsimp only at h1' h2' h4 ⊢
    rw [copyFrom_eq, copyFrom_eq]
    refine (copyBuf_len _ _ _).agree.bind fun a' _ h => ?_
    obtain ⟨rfl, hl⟩ := h
    refine Agree.refl.bind fun b' _ h => ?_
    subst h
    exact .ok ⟨rfl, ⟨h1', h2', h3, h4, hz.q, hz.qm, hz.qt, hz.rem⟩, hl.trans ha⟩

theorem dpccUIn_agree (m : Build) (w n nb : Nat) (d : Dpcc) (s : GcdSt) (z : Scratch) (hz : z.Fits n nb) (ha : s.a.length = n) :
    Agree (Kept n nb) (dpccUIn m w d s z : Out ε _) (dpccU m w n d s) := by
  unfold dpccUIn dpccU
  refine Agree.refl.bind fun a _ h => ?_
  subst h
  refine Agree.refl.bind fun b _ h => ?_
  subst h
  by_cases hd : d.odd = true
  · simp only [if_pos hd]
    refine (mulSubSignedIn_agree m w _ _ _ _ _ _ _ _ _ _ hz.x1 hz.y2 hz.t1).bind fun p q h => ?_
    obtain ⟨x1, y2, t1, l1⟩ := p
    obtain ⟨⟨h1, h2, h3⟩, rfl⟩ := h
    dsimp only at h1 h2 h3 ⊢
    refine (mulSubSignedIn_agree m w _ _ _ _ _ _ _ _ _ _ h1 h2 hz.t2).bind fun p q h => ?_
    obtain ⟨x1', y2', t2, l2⟩ := p
    obtain ⟨⟨h1', h2', h4⟩, rfl⟩ := h
    dsimp only at h1' h2' h4 ⊢
    rw [copyFrom_eq, copyFrom_eq]
    refine (copyBuf_len _ _ _).agree.bind fun a' _ h => ?_
    obtain ⟨rfl, hl⟩ := h
    refine Agree.refl.bind fun b' _ h => ?_
    subst h
    exact .ok ⟨rfl, ⟨h1', h2', h3, h4, hz.q, hz.qm, hz.qt, hz.rem⟩, ha⟩
  · simp only [if_neg hd]
    refine (mulSubSignedIn_agree m w _ _ _ _ _ _ _ _ _ _ hz.x1 hz.y2 hz.t1).bind fun p q h => ?_
    obtain ⟨x1, y2, t1, l1⟩ := p
    obtain ⟨⟨h1, h2, h3⟩, rfl⟩ := h
    dsimp only at h1 h2 h3 ⊢
    refine (mulSubSignedIn_agree m w _ _ _ _ _ _ _ _ _ _ h1 h2 hz.t2).bind fun p q h => ?_
    obtain ⟨x1', y2', t2, l2⟩ := p
    obtain ⟨⟨h1', h2', h4⟩, rfl⟩ := h
    dsimp only at h1' h2' h4 ⊢
    rw [copyFrom_eq, copyFrom_eq]
    refine (copyBuf_len _ _ _).agree.bind fun a' _ h => ?_
    obtain ⟨rfl, hl⟩ := h
    refine Agree.refl.bind fun b' _ h => ?_
    subst h
    exact .ok ⟨rfl, ⟨h1', h2', h3, h4, hz.q, hz.qm, hz.qt, hz.rem⟩, ha⟩

theorem euclidStepIn_agree (m : Build) (w n nb : Nat) (s : GcdSt) (z : Scratch) (hz : z.Fits n nb) (ha : s.a.length = n) :
    Agree (Kept n nb) (euclidStepIn m w s z : Out ε _) (euclidStep m w n nb s) := by
  unfold euclidStepIn euclidStep
  refine (sliceTo_len _ _).agree.bind fun a _ h => ?_
  obtain ⟨rfl, hal, hal'⟩ := h
  refine (sliceTo_len _ _).agree.bind fun b _ h => ?_
  obtain ⟨rfl, hbl, -⟩ := h
  unfold sliceTo
  rw [hz.rem]
  by_cases hb : s.bLen ≤ nb
  · rw [decide_eq_true hb, rassert_true, bind_ok, bind_ok]
    show Agree _ ((pure (z.rem.take s.bLen) : Out ε _) >>= _) _
    rw [show (pure (z.rem.take s.bLen) : Out ε _) = .ok (z.rem.take s.bLen) from rfl, bind_ok]
    have hrl : (z.rem.take s.bLen).length = s.bLen := by rw [List.length_take, hz.rem, Nat.min_eq_left hb]
    have e := divRemDigitsIn_eq (ε := ε) m w a b z.q (z.rem.take s.bLen) (by rw [hal, hz.q, ← ha]; exact hal')
    rw [hz.q, hrl] at e
    refine ((divRemDigits_len m w a b n s.bLen).agree_eq e).bind fun p _ h => ?_
    obtain ⟨rfl, hq, hr⟩ := h
    obtain ⟨⟨qBuf, qLen⟩, r, rl⟩ := p
    dsimp only at hq hr ⊢
    refine Agree.refl.bind fun q _ h => ?_
    subst h
    rw [mulDigitsIn_eq, hz.qm]
    refine (mulDigits_len m w q b (n * 2)).agree.bind fun p _ h => ?_
    obtain ⟨rfl, hp⟩ := h
    obtain ⟨qm, pLen⟩ := p
    dsimp only at hp ⊢
    refine Agree.refl.bind fun p _ h => ?_
    subst h
    rw [subDigitsIn_eq, hz.qt]
    refine (subDigits_len m w a p (n * 2)).agree.bind fun t _ h => ?_
    obtain ⟨rfl, ht⟩ := h
    obtain ⟨qt, tLen⟩ := t
    dsimp only at ht ⊢
    rw [copyFrom_eq, copyFrom_eq]
    refine (copyBuf_len _ _ _).agree.bind fun a' _ h => ?_
    obtain ⟨rfl, hl⟩ := h
    refine Agree.refl.bind fun b' _ h => ?_
    subst h
    refine Agree.refl.bind fun ua _ h => ?_
    subst h
    refine Agree.refl.bind fun ub _ h => ?_
    subst h
    rw [mulDigitsIn_eq, hp]
    refine (mulDigits_len m w q ub (n * 2)).agree.bind fun p _ h => ?_
    obtain ⟨rfl, hp'⟩ := h
    obtain ⟨qm', pLen'⟩ := p
    dsimp only at hp' ⊢
    refine Agree.refl.bind fun p _ h => ?_
    subst h
    refine (signedSubIn_agree m w (n * 2) ua s.uaSign p s.ubSign qt ht).bind fun t _ h => ?_
    obtain ⟨rfl, ht'⟩ := h
    obtain ⟨qt', tLen', g'⟩ := t
    dsimp only at ht' ⊢
    rw [copyFrom_eq, copyFrom_eq]
    refine Agree.refl.bind fun ua' _ h => ?_
    subst h
    refine Agree.refl.bind fun ub' _ h => ?_
    subst h
    refine .ok ⟨rfl, ⟨hz.x1, hz.y2, hz.t1, hz.t2, hq, hp', ht', ?_⟩, hl.trans ha⟩
    show (r ++ z.rem.drop s.bLen).length = nb
    rw [List.length_append, List.length_drop, hr, hz.rem]; omega
  · rw [decide_eq_false hb]; exact .panic

theorem gcdBodyIn_agree (m : Build) (w n nb fuel : Nat) (s : GcdSt) (z : Scratch) (hz : z.Fits n nb) (ha : s.a.length = n) :
    Agree (Kept n nb) (gcdBodyIn m w fuel s z : Out ε _) (gcdBody m w n nb fuel s) := by
  unfold gcdBodyIn gcdBody
  split
  · refine Agree.refl.bind fun d _ h => ?_
    subst h
    refine Agree.refl.bind fun d _ h => ?_
    subst h
    split
    · exact euclidStepIn_agree m w n nb s z hz ha
    · refine (dpccABIn_agree m w n nb d s z hz ha).bind fun p s' h => ?_
      obtain ⟨s1, z1⟩ := p
      obtain ⟨rfl, h1, h2⟩ := h
      exact dpccUIn_agree m w n nb d _ _ h1 h2
  · exact euclidStepIn_agree m w n nb s z hz ha

theorem gcdLoopIn_eq (m : Build) (w n nb inner fuel : Nat) (s : GcdSt) (z : Scratch) (hz : z.Fits n nb) (ha : s.a.length = n) :
    (gcdLoopIn m w inner fuel s z : Out ε _) = gcdLoop m w n nb inner fuel s := by
  induction fuel generalizing s z with
  | zero => rfl
  | succ fuel ih =>
    unfold gcdLoopIn gcdLoop
    congr 1; funext b; congr 1; funext c
    split
    · rfl
    · refine Agree.eq ((gcdBodyIn_agree m w n nb inner s z hz ha).bind fun p s' h => ?_)
      obtain ⟨s1, z1⟩ := p
      obtain ⟨rfl, h1, h2⟩ := h
      exact Agree.of_eq (ih _ _ h1 h2)

theorem gcdDigitsIn_eq (m : Build) (w fuel : Nat) (a b : List Nat) (z : Scratch) (hz : z.Fits a.length b.length) :
    (gcdDigitsIn m w fuel a b z : Out ε _) = gcdDigits m w fuel a b := by
  unfold gcdDigitsIn gcdDigits freshBuf
  congr 1; funext o; congr 1; funext _; congr 1; funext c; congr 1; funext _
  dsimp only
  rw [storeAt_zeros]
  congr 1; funext ub
  rw [gcdLoopIn_eq m w a.length b.length fuel fuel _ z hz rfl]

theorem Scratch.fresh_fits (n nb : Nat) : (Scratch.fresh n nb).Fits n nb := by
  constructor <;> exact List.length_replicate

end LCT.BigInt
