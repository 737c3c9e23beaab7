import Verif.StringBuilderReplace
set_option linter.unusedSimpArgs false
/-!
# StringBuilder: histories, the calls covered by the theorems, and one lemma per call

`MemSafe` and `Plain` list the calls for which the property theorems hold; every exclusion is a defect of the code shown
by a `refuted` theorem in StringBuilderProps.lean.
-/
namespace Verif.SBModel
open SBSpec

/-- How many characters `Append(String*, start, count)` takes; a negative count means all of them. -/
def takeCount (v : WStr) (n : Int) : Int := if n < 0 then v.length else n

/-- Arguments the API accepts for a builder holding `xs`. -/
def ArgsOk (op : Op) (xs : WStr) : Prop :=
  match op with
  | .appendStr none _ _ => True
  | .appendStr (some v) i n => 0 ≤ i ∧ i + takeCount v n ≤ v.length
  | .appendChar _ n => 0 ≤ n
  | .appendText _ => True
  | .appendArray none _ _ => True
  | .appendArray (some a) i n =>
      takeCount a.data n = 0 ∨ (max i 0 + takeCount a.data n ≤ a.data.length ∧ a.isChar = true ∧ a.oneDim = true)
  | .appendLine => True
  | .appendLineStr _ => True
  | .insertText i _ => 0 ≤ i ∧ i ≤ xs.length
  | .insertStr i _ _ => 0 ≤ i ∧ i ≤ xs.length
  | .insertArray _ none _ _ => True
  | .insertArray k (some a) i n =>
      takeCount a.data n = 0 ∨
        (max i 0 + takeCount a.data n ≤ a.data.length ∧ a.isChar = true ∧ a.oneDim = true ∧ 0 ≤ k ∧ k ≤ xs.length)
  | .remove i n => 0 ≤ i ∧ 0 ≤ n ∧ i + n ≤ xs.length
  | .replaceChar _ _ i n => 0 ≤ i ∧ 0 ≤ n ∧ i + n ≤ xs.length
  | .replaceStr p _ i n => 0 ≤ i ∧ 0 ≤ n ∧ i + n ≤ xs.length ∧ p ≠ none ∧ p ≠ some []
  | .setChars i _ => 0 ≤ i ∧ i < xs.length
  | .clear => True
  | .setLength n => 0 ≤ n
  | .setCapacity n => 0 ≤ n
  | .ensureCapacity n => 0 ≤ n

/-- What the call must make of the text `xs`. -/
def Expected (op : Op) (xs ys : WStr) : Prop :=
  match op with
  | .appendStr none _ _ => ys = xs
  | .appendStr (some v) i n => ys = xs ++ (v.drop i.toNat).take (takeCount v n).toNat
  | .appendChar c n => ys = xs ++ List.replicate n.toNat c
  | .appendText t => ys = xs ++ t
  | .appendArray none _ _ => ys = xs
  | .appendArray (some a) i n => ys = xs ++ (a.data.drop i.toNat).take (takeCount a.data n).toNat
  | .appendLine => ys = xs ++ [13, 10]
  | .appendLineStr none => ys = xs ++ [13, 10]
  | .appendLineStr (some v) => ys = xs ++ v ++ [13, 10]
  | .insertText i t => ys = insertAt xs i.toNat t
  | .insertStr _ none _ => ys = xs
  | .insertStr i (some v) n => ys = insertAt xs i.toNat (repeated v n.toNat)
  | .insertArray _ none _ _ => ys = xs
  | .insertArray k (some a) i n => ys = insertAt xs k.toNat ((a.data.drop i.toNat).take (takeCount a.data n).toNat)
  | .remove i n => ys = removeAt xs i.toNat n.toNat
  | .replaceChar old new i n => ys = onRange (fun t => t.map fun c => if c = old then new else c) xs i.toNat n.toNat
  | .replaceStr none _ _ _ => ys = xs
  | .replaceStr (some p) r i n =>
      ∃ zs, Replaced p (r.getD []) ((xs.drop i.toNat).take n.toNat) zs ∧ ys = xs.take i.toNat ++ zs ++ xs.drop (i.toNat + n.toNat)
  | .setChars i c => ys = xs.set i.toNat c
  | .clear => ys = []
  | .setLength n => ys = xs.take n.toNat ++ List.replicate (n.toNat - xs.length) 0
  | .setCapacity _ => ys = xs
  | .ensureCapacity _ => ys = xs

/-- The builder may hold the result: it does not exceed MaxCapacity. For `set_Capacity` the request must lie between
Capacity and MaxCapacity. -/
def Room (s : SB) (op : Op) (xs : WStr) : Prop :=
  match op with
  | .setCapacity n => (s.cap : Int) ≤ n ∧ n ≤ s.maxCap
  | .ensureCapacity n => n ≤ s.maxCap
  | _ => ∀ ys, Expected op xs ys → (ys.length : Int) ≤ s.maxCap

/-- Calls that stay inside the memory block. Excluded: null `String*`; negative insertion index; results or capacities
above 2147483520 characters (Int32 overflow); `Replace` patterns of 2^29 characters or more; `Append(Char)` and `AppendLine`, which never enlarge the block, when the text
plus the added characters does not fit the present block; an overlapping `memcpy` on a platform where that matters. -/
def MemSafe (ov : Bool) (s : SB) (op : Op) : Prop :=
  match op with
  | .appendStr none _ _ => False
  | .appendStr (some v) _ n => s.len + takeCount v n ≤ limit
  | .appendChar _ n =>
      n < 0 ∨ n > s.maxCap ∧ n > s.cap ∨ (s.len + n ≤ max (128 : Int) (max (s.cap : Int) n) ∧ n ≤ limit)
  | .appendText t => s.len + t.length ≤ limit
  | .appendArray none _ _ => True
  | .appendArray (some a) _ n => s.len + takeCount a.data n ≤ limit
  | .appendLine => (s.len : Int) + 2 ≤ max (128 : Int) (s.cap : Int)
  | .appendLineStr none => False
  | .appendLineStr (some v) => (s.len : Int) + v.length + 2 ≤ max (128 : Int) (s.cap : Int)
  | .insertText i t => 0 ≤ i ∧ s.len + t.length ≤ limit
  | .insertStr _ none n => n ≤ 0
  | .insertStr i (some v) n => 0 ≤ i ∧ s.len + (n.toNat * v.length : Nat) ≤ limit
  | .insertArray _ none _ _ => True
  | .insertArray k (some a) _ n => 0 ≤ k ∧ s.len + takeCount a.data n ≤ limit
  | .remove i n => ov = true ∨ s.len - i - n ≤ n ∨ s.len - i - n ≤ 0
  | .replaceChar _ _ _ _ => True
  | .replaceStr none _ _ _ => True
  | .replaceStr (some p) r i n =>
      (p.length < 536870912 ∨ n < p.length) ∧
      ∀ ys, Replaced p (r.getD []) (((content s).drop i.toNat).take n.toNat) ys → (s.len : Int) - n + ys.length ≤ limit
  | .setChars _ _ => True
  | .clear => True
  | .setLength n => n ≤ limit ∨ n > s.maxCap
  | .setCapacity n => n ≤ limit ∨ n > s.maxCap
  | .ensureCapacity n => n ≤ limit ∨ n > s.maxCap

/-- Calls that edit the text as expected. Excluded: `set_Length` beyond the present length (old characters reappear);
repeated `Insert` of an empty string (throws), with a count below one (accepted silently) or of a result above MaxCapacity
(throws half way). -/
def Plain (s : SB) (op : Op) : Prop :=
  match op with
  | .insertStr _ none _ => False
  | .insertStr _ (some v) n => 1 ≤ n ∧ v.length ≠ 0 ∧ (n.toNat = 1 ∨ s.len + (n.toNat * v.length : Nat) ≤ s.maxCap)
  | .setLength n => n ≤ s.len
  | _ => True

/-- Calls that keep Length <= Capacity: no `set_Capacity` below the length, and a character append fits the capacity. -/
def CapSafe (s : SB) (op : Op) : Prop :=
  match op with
  | .setCapacity n => (s.len : Int) ≤ n
  | .appendChar _ n => s.len + n ≤ max (s.cap : Int) n
  | .appendLine => s.len + 2 ≤ s.cap
  | .appendLineStr (some v) => s.len + v.length + 2 ≤ s.cap
  | _ => True

/-- The call does not move the end of the text over old characters. -/
def NotGrown (s : SB) (op : Op) : Prop :=
  match op with
  | .setLength n => n ≤ s.len
  | _ => True

theorem toStr_eq {s : SB} (h : Inv s) {xs : WStr} (hx : content s = xs) : toStr s = .ok xs := by rw [toStr_ok h, hx]

/-- Outcome of a covered call. -/
structure Good (s : SB) (op : Op) (o : Out) (s' : SB) : Prop where
  out : o = .done s' ∨ ∃ e, o = .threw e s'
  inv : Inv s'
  max : s'.maxCap = s.maxCap
  cap : CapSafe s op → s.len ≤ s.cap → s'.len ≤ s'.cap
  term : NotGrown s op → s.len ≤ s.cap → s.buf[s.len]? = some 0 → s'.buf[s'.len]? = some 0
  text : Plain s op →
    (o = .done s' ∧ ArgsOk op (content s) ∧ Expected op (content s) (content s')) ∨
    ((∃ e, o = .threw e s') ∧ content s' = content s ∧ (¬ ArgsOk op (content s) ∨ ¬ Room s op (content s)))

theorem good_threw {s : SB} {op : Op} {o : Out} {e : Exc} (h : Inv s) (ho : o = .threw e s)
    (hb : Plain s op → ¬ ArgsOk op (content s) ∨ ¬ Room s op (content s)) : ∃ s', Good s op o s' :=
  ⟨s, ⟨Or.inr ⟨e, ho⟩, h, rfl, fun _ => id, fun _ _ => id, fun hp => Or.inr ⟨⟨e, ho⟩, rfl, hb hp⟩⟩⟩

theorem good_edit {s s' : SB} {op : Op} {o : Out} {xs : WStr} (ho : o = .done s') (he : Edit s s' xs)
    (hb : Plain s op → ArgsOk op (content s) ∧ Expected op (content s) xs) : ∃ s', Good s op o s' :=
  ⟨s', ⟨Or.inl ho, he.inv, he.max, fun _ hc => by have := he.fits; omega, fun _ _ ht => he.term ht,
    fun hp => Or.inl ⟨ho, (hb hp).1, by rw [he.text]; exact (hb hp).2⟩⟩⟩

theorem good_same {s : SB} {op : Op} {o : Out} (h : Inv s) (ho : o = .done s)
    (hb : Plain s op → ArgsOk op (content s) ∧ Expected op (content s) (content s)) : ∃ s', Good s op o s' :=
  good_edit ho ⟨h, rfl, rfl, Or.inr (Or.inl ⟨Nat.le_refl _, rfl⟩), id⟩ hb

theorem insertAt_end {xs ys : WStr} : insertAt xs xs.length ys = xs ++ ys := by simp [insertAt]

theorem good_appendStr {s : SB} {v : WStr} {i n : Int} (h : Inv s) (hl : s.len + takeCount v n ≤ limit) :
    ∃ s', Good s (.appendStr (some v) i n) (appendStr s (some v) i n) s' := by
  have hct := content_length h
  unfold appendStr
  simp only []
  have htc : (if n < 0 then (v.length : Int) else n) = takeCount v n := rfl
  rw [htc]
  have hn : 0 ≤ takeCount v n := by unfold takeCount; split <;> omega
  by_cases h1 : i < 0
  · rw [if_pos h1]; exact good_threw h rfl (fun _ => Or.inl (by simp only [ArgsOk]; omega))
  rw [if_neg h1]
  by_cases h2 : i > v.length - takeCount v n
  · rw [if_pos h2]; exact good_threw h rfl (fun _ => Or.inl (by simp only [ArgsOk]; omega))
  rw [if_neg h2]
  have hvl : takeCount v n ≤ ((v ++ [0]).drop i.toNat).length := by simp; omega
  have htake : ((v ++ [0]).drop i.toNat).take (takeCount v n).toNat = (v.drop i.toNat).take (takeCount v n).toNat := by
    rw [List.drop_append_of_le_length (by omega), List.take_append_of_le_length (by simp; omega)]
  rcases appendRaw_spec (whr := -1) h hn hvl (Or.inr rfl) hl with ⟨he, hx⟩ | ⟨he, _, hx, _⟩ | ⟨t, he, _, htl, hed, _⟩
  · omega
  · refine good_threw h he (fun _ => Or.inr ?_)
    intro hroom
    simp only [Room] at hroom
    have := hroom _ rfl
    simp only [List.length_append, List.length_take, List.length_drop] at this
    omega
  · refine good_edit he hed (fun _ => ⟨by simp only [ArgsOk]; omega, ?_⟩)
    simp only [Expected, if_true]
    rw [htake]
    have e : ((s.len : Int)).toNat = (content s).length := by omega
    rw [e, insertAt_end]

theorem good_appendChar {s : SB} {c : Nat} {n : Int} (h : Inv s)
    (hm : n < 0 ∨ n > s.maxCap ∧ n > s.cap ∨ (s.len + n ≤ max (128 : Int) (max (s.cap : Int) n) ∧ n ≤ limit)) :
    ∃ s', Good s (.appendChar c n) (appendChar s c n) s' := by
  rcases appendChar_spec (c := c) h hm with ⟨he, hx⟩ | ⟨t, he, h0, htl, hcap, hce, hnc, hinv, hmax, htext, hterm⟩
  · refine good_threw h he (fun _ => ?_)
    rcases hx with hx | hx
    · exact Or.inl (by simp only [ArgsOk]; omega)
    · right
      intro hroom
      simp only [Room] at hroom
      have := hroom _ rfl
      simp only [List.length_append, List.length_replicate] at this
      omega
  · refine ⟨t, Or.inl he, hinv, hmax, ?_, fun _ _ _ => hterm, fun _ => Or.inl ⟨he, h0, htext⟩⟩
    intro hcs _
    simp only [CapSafe] at hcs
    omega

theorem room1 {l : Nat} {m c : Int} (h : (l : Int) + 1 ≤ max 128 c) :
    (1 : Int) < 0 ∨ (1 : Int) > m ∧ (1 : Int) > c ∨ ((l : Int) + 1 ≤ max (128 : Int) (max c 1) ∧ (1 : Int) ≤ limit) := by
  refine Or.inr (Or.inr ⟨by omega, ?_⟩)
  unfold limit; omega

/-- `AppendLine` never throws and appends CR LF. -/
theorem appendLine_spec {s : SB} (h : Inv s) (hm : (s.len : Int) + 2 ≤ max (128 : Int) (s.cap : Int)) :
    ∃ s', appendLine s = .done s' ∧ Inv s' ∧ s'.maxCap = s.maxCap ∧ content s' = content s ++ [13, 10] ∧
      s'.buf[s'.len]? = some 0 ∧ s.cap ≤ s'.cap ∧ s'.len = s.len + 2 := by
  have hmx := h.max1
  unfold appendLine
  rcases appendChar_spec (s := s) (c := 13) (n := 1) h (room1 (by omega))
    with ⟨_, hx⟩ | ⟨t, he, _, htl, hcap, hce, hnc, hinv, hmax, htext, hterm⟩
  · omega
  rw [he]
  rw [andThen_done]
  rcases appendChar_spec (s := t) (c := 10) (n := 1) hinv (room1 (by omega))
    with ⟨_, hx⟩ | ⟨u, he', _, htl', hcap', hce', hnc', hinv', hmax', htext', hterm'⟩
  · omega
  refine ⟨u, he', hinv', by rw [hmax', hmax], ?_, hterm', by omega, by omega⟩
  rw [htext', htext]
  show content s ++ List.replicate 1 13 ++ List.replicate 1 10 = _
  simp

theorem good_appendLine {s : SB} (h : Inv s) (hm : (s.len : Int) + 2 ≤ max (128 : Int) (s.cap : Int)) :
    ∃ s', Good s .appendLine (appendLine s) s' := by
  obtain ⟨t, he, hinv, hmax, htext, hterm, hcap, htl⟩ := appendLine_spec h hm
  refine ⟨t, Or.inl he, hinv, hmax, ?_, fun _ _ _ => hterm, fun _ => Or.inl ⟨he, trivial, htext⟩⟩
  intro hcs _; simp only [CapSafe] at hcs; omega

theorem good_appendLineStr {s : SB} {v : WStr} (h : Inv s) (hm : (s.len : Int) + v.length + 2 ≤ max (128 : Int) (s.cap : Int)) :
    ∃ s', Good s (.appendLineStr (some v)) (appendLineStr s (some v)) s' := by
  have hcl := h.cap_le
  have hbl := h.buf_le
  have hct := content_length h
  unfold appendLineStr
  unfold appendStr
  simp only []
  rw [if_neg (by omega), if_neg (by simp)]
  rw [if_pos (by omega : (-1 : Int) < 0)]
  have htake : ((v ++ [0]).drop (0 : Int).toNat).take ((v.length : Int)).toNat = v := by simp
  rcases appendRaw_spec (values := (v ++ [0]).drop (0 : Int).toNat) (n := v.length) (whr := -1) h (by omega) (by simp; omega) (Or.inr rfl) (by simp only [limit]; omega)
    with ⟨he, hx⟩ | ⟨he, _, hx, _⟩ | ⟨t, he, _, htl, hed, hlc, hcc⟩
  · omega
  · rw [he]
    refine good_threw h rfl (fun _ => Or.inr ?_)
    intro hroom
    simp only [Room] at hroom
    have := hroom _ rfl
    simp only [List.length_append, List.length_cons, List.length_nil] at this
    omega
  · rw [he]
    rw [andThen_done]
    obtain ⟨u, he', hinv, hmax, htext, hterm, hcap, htl'⟩ := appendLine_spec hed.inv (by omega)
    refine ⟨u, Or.inl he', hinv, by rw [hmax, hed.max], ?_, fun _ _ _ => hterm, fun _ => Or.inl ⟨he', trivial, ?_⟩⟩
    · intro hcs _; simp only [CapSafe] at hcs; omega
    · simp only [Expected]
      rw [htext, hed.text, if_pos rfl, htake]
      have e : ((s.len : Int)).toNat = (content s).length := by omega
      rw [e, insertAt_end]

theorem good_insertText {s : SB} {i : Int} {t : WStr} (h : Inv s) (hi : 0 ≤ i) (hl : s.len + t.length ≤ limit) :
    ∃ s', Good s (.insertText i t) (insertText s i t) s' := by
  have hct := content_length h
  unfold insertText
  rcases appendRaw_spec (values := t) (n := t.length) (whr := i) h (by omega) (by omega) (Or.inl hi) hl
    with ⟨he, hx⟩ | ⟨he, hw, hx, _⟩ | ⟨t', he, hw, htl, hed, _⟩
  · exact good_threw h he (fun _ => Or.inl (by simp only [ArgsOk]; omega))
  · refine good_threw h he (fun _ => Or.inr ?_)
    intro hroom
    simp only [Room] at hroom
    have := hroom _ rfl
    rw [insertAt_length (by omega)] at this
    omega
  · refine good_edit he hed (fun _ => ⟨by simp only [ArgsOk]; omega, ?_⟩)
    simp only [Expected]
    rw [if_neg (by omega)]; simp

theorem good_appendText {s : SB} {t : WStr} (h : Inv s) (hl : s.len + t.length ≤ limit) :
    ∃ s', Good s (.appendText t) (insertText s (-1) t) s' := by
  have hct := content_length h
  unfold insertText
  rcases appendRaw_spec (values := t) (n := t.length) (whr := -1) h (by omega) (by omega) (Or.inr rfl) hl
    with ⟨he, hx⟩ | ⟨he, hw, hx, _⟩ | ⟨t', he, hw, htl, hed, _⟩
  · omega
  · refine good_threw h he (fun _ => Or.inr ?_)
    intro hroom
    simp only [Room] at hroom
    have := hroom _ rfl
    simp only [List.length_append] at this
    omega
  · refine good_edit he hed (fun _ => ⟨trivial, ?_⟩)
    simp only [Expected, if_true]
    have e : ((s.len : Int)).toNat = (content s).length := by omega
    rw [e, insertAt_end]; simp

/-- Shared by `Append(Array*)` and `Insert(index, Array*)`. -/
theorem insertArray_cases {s : SB} {k : Int} {a : ArrArg} {i n : Int} (h : Inv s) (hk : 0 ≤ k) (hl : s.len + takeCount a.data n ≤ limit) :
    (insertArray s k (some a) i n = .done s ∧ takeCount a.data n = 0) ∨
    (takeCount a.data n ≠ 0 ∧ ∃ e, insertArray s k (some a) i n = .threw e s ∧
      (¬ (max i 0 + takeCount a.data n ≤ a.data.length ∧ a.isChar = true ∧ a.oneDim = true) ∨ k > s.len)) ∨
    (takeCount a.data n ≠ 0 ∧ ∃ e, insertArray s k (some a) i n = .threw e s ∧
      (max i 0 + takeCount a.data n ≤ a.data.length ∧ k ≤ s.len ∧ s.len + takeCount a.data n > s.maxCap)) ∨
    (takeCount a.data n ≠ 0 ∧ (max i 0 + takeCount a.data n ≤ a.data.length ∧ a.isChar = true ∧ a.oneDim = true) ∧ k ≤ s.len ∧
      ∃ s', insertArray s k (some a) i n = .done s' ∧
        Edit s s' (insertAt (content s) k.toNat ((a.data.drop i.toNat).take (takeCount a.data n).toNat))) := by
  unfold insertArray
  simp only []
  have htc : (if n < 0 then (a.data.length : Int) else n) = takeCount a.data n := rfl
  rw [htc]
  have hn : 0 ≤ takeCount a.data n := by unfold takeCount; split <;> omega
  have hst : (if i < 0 then (0 : Int) else i) = max i 0 := by split <;> omega
  rw [hst]
  by_cases h0 : takeCount a.data n = 0
  · left; rw [if_pos h0]; exact ⟨rfl, h0⟩
  rw [if_neg h0]
  right
  by_cases h1 : takeCount a.data n > a.data.length - max i 0
  · left; rw [if_pos h1]; exact ⟨h0, _, rfl, Or.inl (by omega)⟩
  rw [if_neg h1]
  by_cases h2 : a.isChar = false
  · left; rw [if_pos h2]; exact ⟨h0, _, rfl, Or.inl (by simp [h2])⟩
  rw [if_neg h2]
  by_cases h3 : a.oneDim = false
  · left; rw [if_pos h3]; exact ⟨h0, _, rfl, Or.inl (by simp [h3])⟩
  rw [if_neg h3, if_neg (by omega)]
  simp only [Bool.not_eq_false] at h2 h3
  have hit : (max i 0).toNat = i.toNat := by omega
  rcases appendRaw_spec (values := a.data.drop (max i 0).toNat) (whr := k) h hn (by simp; omega) (Or.inl hk) hl
    with ⟨he, hx⟩ | ⟨he, hw, hx, _⟩ | ⟨t', he, hw, htl, hed, _⟩
  · left; exact ⟨h0, _, he, Or.inr hx⟩
  · right; left; exact ⟨h0, _, he, by omega, hw, hx⟩
  · right; right
    refine ⟨h0, ⟨by omega, h2, h3⟩, hw, t', he, ?_⟩
    rw [if_neg (by omega), hit] at hed; exact hed

theorem good_insertArray {s : SB} {k : Int} {a : ArrArg} {i n : Int} (h : Inv s) (hk : 0 ≤ k) (hl : s.len + takeCount a.data n ≤ limit) :
    ∃ s', Good s (.insertArray k (some a) i n) (insertArray s k (some a) i n) s' := by
  have hct := content_length h
  rcases insertArray_cases (i := i) h hk hl with ⟨he, h0⟩ | ⟨h0, e, he, hx⟩ | ⟨h0, e, he, hx⟩ | ⟨h0, hx, hk', t, he, hed⟩
  · refine good_same h he (fun _ => ⟨Or.inl h0, ?_⟩)
    simp only [Expected, h0]; simp [insertAt]
  · refine good_threw h he (fun _ => Or.inl ?_)
    simp only [ArgsOk]
    rcases hx with hx | hx
    · intro hh; rcases hh with hh | ⟨q1, q2, q3, _⟩
      · exact h0 hh
      · exact hx ⟨q1, q2, q3⟩
    · omega
  · refine good_threw h he (fun _ => Or.inr ?_)
    intro hroom
    simp only [Room] at hroom
    have := hroom _ rfl
    rw [insertAt_length (by omega)] at this
    simp only [List.length_take, List.length_drop] at this
    omega
  · refine good_edit he hed (fun _ => ⟨Or.inr ⟨hx.1, hx.2.1, hx.2.2, hk, by omega⟩, rfl⟩)

theorem good_appendArray {s : SB} {a : ArrArg} {i n : Int} (h : Inv s) (hl : s.len + takeCount a.data n ≤ limit) :
    ∃ s', Good s (.appendArray (some a) i n) (insertArray s s.len (some a) i n) s' := by
  have hct := content_length h
  have e : ((s.len : Int)).toNat = (content s).length := by omega
  rcases insertArray_cases (i := i) (k := s.len) h (by omega) hl with ⟨he, h0⟩ | ⟨h0, e, he, hx⟩ | ⟨h0, e, he, hx⟩ | ⟨h0, hx, hk', t, he, hed⟩
  · refine good_same h he (fun _ => ⟨Or.inl h0, ?_⟩)
    simp only [Expected, h0]; simp
  · refine good_threw h he (fun _ => Or.inl ?_)
    simp only [ArgsOk]
    rcases hx with hx | hx
    · intro hh; rcases hh with hh | hh
      · exact h0 hh
      · exact hx hh
    · omega
  · refine good_threw h he (fun _ => Or.inr ?_)
    intro hroom
    simp only [Room] at hroom
    have := hroom _ rfl
    simp only [List.length_append, List.length_take, List.length_drop] at this
    omega
  · refine good_edit he hed (fun _ => ⟨Or.inr hx, ?_⟩)
    simp only [Expected]; rw [e, insertAt_end]

theorem good_insertStr {s : SB} {i : Int} {v : WStr} {n : Int} (h : Inv s) (hi : 0 ≤ i) (hl : s.len + (n.toNat * v.length : Nat) ≤ limit) :
    ∃ s', Good s (.insertStr i (some v) n) (insertStr s i (some v) n) s' := by
  have hct := content_length h
  unfold insertStr
  simp only []
  obtain ⟨s', ho, hinv, hmax, hcap, hterm, _⟩ := insertLoop_mem (index := i) (v := v) (Or.inl hi) n.toNat s h hl
  refine ⟨s', ho, hinv, hmax, fun _ => hcap, fun _ _ => hterm, ?_⟩
  intro hp
  simp only [Plain] at hp
  obtain ⟨hp1, hp2, hp3⟩ := hp
  by_cases hidx : i > s.len
  · rw [insertLoop_bad (by omega) hidx] at ho ⊢
    rcases ho with ho | ⟨e, ho⟩
    · cases ho
    · injection ho with _ e2
      subst e2
      right; exact ⟨⟨_, rfl⟩, rfl, Or.inl (by simp only [ArgsOk]; omega)⟩
  · by_cases hmx : s.len + (n.toNat * v.length : Nat) ≤ s.maxCap
    · obtain ⟨t, ho', hinv', ht⟩ := insertLoop_done hi hp2 n.toNat s h hl hmx (by omega)
      rw [ho'] at ho
      rcases ho with ho | ⟨e, ho⟩
      · injection ho with e2; subst e2
        left; exact ⟨ho', ⟨hi, by omega⟩, ht⟩
      · cases ho
    · have hn1 : n.toNat = 1 := by omega
      have hone : insertLoop i v 1 s = appendRaw s (v ++ [0]) v.length i := by
        show (if v.length = 0 then _ else (appendRaw s (v ++ [0]) v.length i).andThen (fun s => Out.done s)) = _
        rw [if_neg hp2]
        cases appendRaw s (v ++ [0]) v.length i <;> rfl
      rw [hn1] at ho hl hmx ⊢
      rw [hone] at ho ⊢
      rw [Nat.one_mul] at hl hmx
      rcases appendRaw_spec (values := v ++ [0]) (n := v.length) (whr := i) h (by omega) (by simp; omega) (Or.inl hi) hl
        with ⟨he, hx⟩ | ⟨he, hw, hx, _⟩ | ⟨t', he, hw, htl, hed, _⟩
      · omega
      · rw [he] at ho ⊢
        rcases ho with ho | ⟨e, ho⟩
        · cases ho
        · injection ho with _ e2; subst e2
          right; refine ⟨⟨_, rfl⟩, rfl, Or.inr ?_⟩
          intro hroom
          simp only [Room] at hroom
          have := hroom _ rfl
          rw [insertAt_length (by omega), repeated_length, hn1] at this
          omega
      · rw [he] at ho ⊢
        rcases ho with ho | ⟨e, ho⟩
        · injection ho with e2; subst e2
          left; refine ⟨rfl, ⟨hi, by omega⟩, ?_⟩
          simp only [Expected]
          rw [hed.text, if_neg (by omega), hn1, take_all_append]; simp [repeated]
        · cases ho

theorem good_remove {ov : Bool} {s : SB} {i n : Int} (h : Inv s) (hm : ov = true ∨ s.len - i - n ≤ n ∨ s.len - i - n ≤ 0) :
    ∃ s', Good s (.remove i n) (remove ov s i n) s' := by
  have hct := content_length h
  rcases remove_spec h hm with ⟨he, hx⟩ | ⟨t, he, h1, h2, h3, hed, _⟩
  · exact good_threw h he (fun _ => Or.inl (by simp only [ArgsOk]; omega))
  · exact good_edit he hed (fun _ => ⟨by simp only [ArgsOk]; omega, rfl⟩)

theorem good_replaceChar {s : SB} {o c : Nat} {i n : Int} (h : Inv s) : ∃ s', Good s (.replaceChar o c i n) (replaceChar s o c i n) s' := by
  have hct := content_length h
  rcases replaceChar_spec (old := o) (new := c) (i := i) (n := n) h with ⟨he, hx⟩ | ⟨t, he, h1, h2, h3, hed, _⟩
  · exact good_threw h he (fun _ => Or.inl (by simp only [ArgsOk]; omega))
  · exact good_edit he hed (fun _ => ⟨by simp only [ArgsOk]; omega, rfl⟩)

theorem good_setChars {s : SB} {i : Int} {c : Nat} (h : Inv s) : ∃ s', Good s (.setChars i c) (setChars s i c) s' := by
  have hct := content_length h
  rcases setChars_spec (i := i) (c := c) h with ⟨he, hx⟩ | ⟨t, he, h1, h2, hed, _⟩
  · exact good_threw h he (fun _ => Or.inl (by simp only [ArgsOk]; omega))
  · exact good_edit he hed (fun _ => ⟨by simp only [ArgsOk]; omega, rfl⟩)

theorem good_replaceNone {s : SB} {p r : Option WStr} {i n : Int} (h : Inv s) (hp : p = none ∨ p = some []) :
    ∃ s', Good s (.replaceStr p r i n) (replaceStr s p r i n) s' := by
  have hbad : Plain s (.replaceStr p r i n) → ¬ ArgsOk (.replaceStr p r i n) (content s) ∨ ¬ Room s (.replaceStr p r i n) (content s) := by
    intro _; left; simp only [ArgsOk]; rintro ⟨_, _, _, q1, q2⟩
    rcases hp with hp | hp
    · exact q1 hp
    · exact q2 hp
  unfold replaceStr
  by_cases h1 : i < 0 ∨ i > s.len
  · rw [if_pos h1]; exact good_threw h rfl hbad
  rw [if_neg h1]
  by_cases h2 : n < 0 ∨ i > s.len - n
  · rw [if_pos h2]; exact good_threw h rfl hbad
  rw [if_neg h2]
  rcases hp with hp | hp
  · subst hp; exact good_threw h rfl hbad
  · subst hp; exact good_threw (e := .argumentOutOfRange) h (by simp) hbad

theorem good_replaceStr {s : SB} {p : WStr} {r : Option WStr} {i n : Int} (h : Inv s)
    (hsm : p.length < 536870912 ∨ n < p.length)
    (hm : ∀ ys, Replaced p (r.getD []) (((content s).drop i.toNat).take n.toNat) ys → (s.len : Int) - n + ys.length ≤ limit) :
    ∃ s', Good s (.replaceStr (some p) r i n) (replaceStr s (some p) r i n) s' := by
  have hct := content_length h
  by_cases hp : p.length = 0
  · have : p = [] := List.length_eq_zero_iff.mp hp
    subst this
    exact good_replaceNone h (Or.inr rfl)
  · rcases replaceStr_spec h hp hsm hm with ⟨he, hx⟩ | ⟨h1, h2, h3, ys, hr, ⟨he, hx⟩ | ⟨t, he, hed⟩⟩
    · exact good_threw h he (fun _ => Or.inl (by simp only [ArgsOk]; omega))
    · refine good_threw h he (fun _ => Or.inr ?_)
      intro hroom
      simp only [Room] at hroom
      have := hroom _ ⟨ys, hr, rfl⟩
      simp only [List.length_append, List.length_take, List.length_drop] at this
      omega
    · refine good_edit he hed (fun _ => ⟨⟨h1, h2, by omega, by simp, ?_⟩, ys, hr, rfl⟩)
      intro hh; injection hh with hh; subst hh; simp at hp

theorem good_setLength {s : SB} {n : Int} (h : Inv s) (hm : n ≤ limit ∨ n > s.maxCap) :
    ∃ s', Good s (.setLength n) (setLength s n) s' := by
  have hct := content_length h
  rcases setLength_spec h hm with ⟨he, hx⟩ | ⟨t, he, h0, hmx, hinv, hmax, htl, hlc, hcc, htext, hterm⟩
  · refine good_threw h he (fun _ => ?_)
    rcases hx with hx | hx
    · exact Or.inl (by simp only [ArgsOk]; omega)
    · right; intro hroom; simp only [Room] at hroom
      have := hroom _ rfl
      simp only [List.length_append, List.length_take, List.length_replicate] at this
      omega
  · refine ⟨t, Or.inl he, hinv, hmax, fun _ _ => hlc, ?_, ?_⟩
    · intro hng hlc' ht
      exact hterm hng ht (fun _ => hlc')
    · intro hp
      simp only [Plain] at hp
      left; refine ⟨he, h0, ?_⟩
      simp only [Expected]
      have h1 := content_length hinv
      have h2 : n.toNat - (content s).length = 0 := by omega
      have h3 : min s.len n.toNat = n.toNat := by omega
      rw [h3] at htext
      rw [h2]; simp only [List.replicate_zero, List.append_nil]
      rw [← htext, List.take_of_length_le (by omega)]

theorem good_clear {s : SB} (h : Inv s) : ∃ s', Good s .clear (clear s) s' := by
  have hm1 := h.max1
  rcases setLength_spec (n := 0) h (Or.inl (by simp only [limit]; omega)) with ⟨he, hx⟩ | ⟨t, he, h0, hmx, hinv, hmax, htl, hlc, hcc, htext, hterm⟩
  · omega
  · refine ⟨t, Or.inl he, hinv, hmax, fun _ _ => hlc, ?_, ?_⟩
    · intro _ hlc' ht; exact hterm (by omega) ht (fun _ => hlc')
    · intro _; left; refine ⟨he, trivial, ?_⟩
      simp only [Expected]
      have h1 := content_length hinv
      exact List.length_eq_zero_iff.mp (by rw [h1, htl]; rfl)

theorem good_setCapacity {s : SB} {n : Int} (h : Inv s) (hm : n ≤ limit ∨ n > s.maxCap) :
    ∃ s', Good s (.setCapacity n) (setCapacity s n) s' := by
  rcases setCapacity_spec h hm with ⟨he, hx⟩ | ⟨t, he, hs, h0, h1, h2, h3, _⟩
  · refine good_threw h he (fun _ => ?_)
    rcases hx with hx | hx | hx
    · exact Or.inl (by simp only [ArgsOk]; omega)
    · right; simp only [Room]; omega
    · right; simp only [Room]; omega
  · refine ⟨t, Or.inl he, hs.inv, hs.max, ?_, fun _ _ => hs.term, fun _ => Or.inl ⟨he, h0, hs.text⟩⟩
    intro hcs _; simp only [CapSafe] at hcs; rw [hs.len]; omega

theorem good_ensureCapacity {s : SB} {n : Int} (h : Inv s) (hm : n ≤ limit ∨ n > s.maxCap) :
    ∃ s', Good s (.ensureCapacity n) (ensureCapacity s n) s' := by
  rcases ensureCapacity_spec h hm with ⟨he, hx⟩ | ⟨t, he, hs, h0, h1, h2, h3, _⟩
  · refine good_threw h he (fun _ => ?_)
    rcases hx with hx | hx
    · exact Or.inl (by simp only [ArgsOk]; omega)
    · right; simp only [Room]; omega
  · refine ⟨t, Or.inl he, hs.inv, hs.max, ?_, fun _ _ => hs.term, fun _ => Or.inl ⟨he, h0, hs.text⟩⟩
    intro _ hc; rw [hs.len]; omega

/-- Every covered call. -/
theorem step_good {ov : Bool} {s : SB} {op : Op} (h : Inv s) (hm : MemSafe ov s op) : ∃ s', Good s op (step ov s op) s' := by
  cases op with
  | appendStr v i n =>
    cases v with
    | none => exact absurd hm id
    | some v => exact good_appendStr h hm
  | appendChar c n => exact good_appendChar h hm
  | appendText t => exact good_appendText h hm
  | appendArray a i n =>
    cases a with
    | none => exact good_same h rfl (fun _ => ⟨trivial, rfl⟩)
    | some a => exact good_appendArray h hm
  | appendLine => exact good_appendLine h hm
  | appendLineStr v =>
    cases v with
    | none => exact absurd hm id
    | some v => exact good_appendLineStr h hm
  | insertText i t => exact good_insertText h hm.1 hm.2
  | insertStr i v n =>
    cases v with
    | none =>
      have hn : n ≤ 0 := hm
      refine good_same h (by show (if n ≤ 0 then _ else _) = _; rw [if_pos hn]) (fun hp => absurd hp id)
    | some v => exact good_insertStr h hm.1 hm.2
  | insertArray k a i n =>
    cases a with
    | none => exact good_same h rfl (fun _ => ⟨trivial, rfl⟩)
    | some a => exact good_insertArray h hm.1 hm.2
  | remove i n => exact good_remove h hm
  | replaceChar o c i n => exact good_replaceChar h
  | replaceStr p r i n =>
    cases p with
    | none => exact good_replaceNone h (Or.inl rfl)
    | some p => exact good_replaceStr h hm.1 hm.2
  | setChars i c => exact good_setChars h
  | clear => exact good_clear h
  | setLength n => exact good_setLength h hm
  | setCapacity n => exact good_setCapacity h hm
  | ensureCapacity n => exact good_ensureCapacity h hm

end Verif.SBModel
