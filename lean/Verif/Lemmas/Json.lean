import Verif.Lemmas.Reader
import Verif.Lemmas.Digits

/-!
# Lemmas on texts that a reader of JSON or XML reads as a given value
-/

namespace Fileid

open Spec Common

/-- The result of a run with events in front. -/
def emit {σ ε : Type} (ev : List ε) (o : Option (σ × List ε)) : Option (σ × List ε) := o.map fun p => (p.1, ev ++ p.2)

theorem emit_nil {σ ε : Type} (o : Option (σ × List ε)) : emit [] o = o := by
  cases o <;> simp [emit]

theorem emit_emit {σ ε : Type} (e1 e2 : List ε) (o : Option (σ × List ε)) : emit e1 (emit e2 o) = emit (e1 ++ e2) o := by
  cases o <;> simp [emit]

theorem run_cons_eq {σ ε : Type} {step : σ → UInt8 → Option (σ × List ε)} {s s' : σ} {c : UInt8} {ev : List ε}
    (h : step s c = some (s', ev)) (t : Bytes) : run step s (c :: t) = emit ev (run step s' t) := by
  rw [run, h]
  cases hr : run step s' t with
  | none => simp [hr, emit]
  | some p => obtain ⟨a, b⟩ := p; simp [hr, emit]

theorem run_append_eq {σ ε : Type} {step : σ → UInt8 → Option (σ × List ε)} {s s' : σ} {t : Bytes} {ev : List ε}
    (h : run step s t = some (s', ev)) (u : Bytes) : run step s (t ++ u) = emit ev (run step s' u) := by
  induction t generalizing s ev with
  | nil =>
    simp only [run, Option.some.injEq, Prod.mk.injEq] at h
    obtain ⟨rfl, rfl⟩ := h
    rw [emit_nil]; rfl
  | cons c cs ih =>
    rw [run] at h
    rw [List.cons_append]
    cases hs : step s c with
    | none => simp [hs] at h
    | some p =>
      obtain ⟨s1, e1⟩ := p
      simp only [hs] at h
      cases hr : run step s1 cs with
      | none => simp [hr] at h
      | some q =>
        obtain ⟨s2, e2⟩ := q
        simp only [hr, Option.some.injEq, Prod.mk.injEq] at h
        obtain ⟨rfl, rfl⟩ := h
        rw [run_cons_eq hs, ih hr, emit_emit]

/-! ### JSON values -/

/-- `t` is read as the value `v` where a value may stand and whatever ends a value follows. -/
def JReads (t : Bytes) (v : JVal) : Prop :=
  ∀ m stack c rest, m = JMode.value ∨ m = JMode.valueOrEnd → isDelim c = true →
    run jsonStep (m, stack) (t ++ c :: rest) = emit v.events (run jsonStep (afterValue stack, stack) (c :: rest))

/-- As `JReads`, whatever follows. -/
def JClosed (t : Bytes) (v : JVal) : Prop :=
  ∀ m stack, m = JMode.value ∨ m = JMode.valueOrEnd →
    run jsonStep (m, stack) t = some ((afterValue stack, stack), v.events)

theorem JClosed.reads {t : Bytes} {v : JVal} (h : JClosed t v) : JReads t v := by
  intro m stack c rest hm _
  exact run_append_eq (h m stack hm) _

theorem jclosed_str {s : Bytes} {cs : List Nat} (h : jsonBody s = some cs) :
    JClosed (b!"\"" ++ s ++ b!"\"") (.str cs) := by
  intro m stack hm
  have h1 := run_jsonStr false stack s cs h
  have e : jsonStep (m, stack) 34 = some ((.inStr false [] false, stack), []) := by
    rcases hm with rfl | rfl <;> rfl
  show run jsonStep (m, stack) (34 :: (s ++ [34])) = _
  rw [run_cons_eq e, h1]
  rfl

theorem jclosed_text {s : Bytes} (h : jsonPlain s = true) : JClosed (b!"\"" ++ s ++ b!"\"") (.text s) :=
  jclosed_str (jsonBody_plain s h)

/-- Characters that start and continue numbers and literals. -/
theorem run_inBare (raw t : Bytes) (stack : List Bool) (h : ∀ c ∈ t, isDelim c = false) :
    run jsonStep (.inBare raw, stack) t = some ((.inBare (raw ++ t), stack), []) := by
  induction t generalizing raw with
  | nil => simp [run]
  | cons c t ih =>
    have hc := h c (by simp)
    have e : jsonStep (.inBare raw, stack) c = some ((.inBare (raw ++ [c]), stack), []) := by
      simp [jsonStep, hc]
    rw [run_cons_eq e, ih _ fun d hd => h d (by simp [hd]), List.append_assoc]
    rfl

theorem jreads_bare {c : UInt8} {t : Bytes} (hc : (isDigit c || c == 45 || c == 116 || c == 102 || c == 110) = true)
    (ht : ∀ d ∈ t, isDelim d = false) (hb : jsonBare (c :: t) = true) : JReads (c :: t) (.bare (c :: t)) := by
  intro m stack d rest hm hd
  have key : ∀ c : UInt8, (isDigit c || c == 45 || c == 116 || c == 102 || c == 110) = true →
      ∀ stack, startValue stack c = some ((.inBare [c], stack), []) ∧ isWs c = false ∧ c ≠ 93 := by
    intro c hc stack
    have h1 : c ≠ 123 := by intro h; subst h; exact absurd hc (by decide)
    have h2 : c ≠ 91 := by intro h; subst h; exact absurd hc (by decide)
    have h3 : c ≠ 34 := by intro h; subst h; exact absurd hc (by decide)
    have h4 : c ≠ 93 := by intro h; subst h; exact absurd hc (by decide)
    have h5 : c ≠ 32 := by intro h; subst h; exact absurd hc (by decide)
    have h6 : c ≠ 9 := by intro h; subst h; exact absurd hc (by decide)
    have h7 : c ≠ 10 := by intro h; subst h; exact absurd hc (by decide)
    have h8 : c ≠ 13 := by intro h; subst h; exact absurd hc (by decide)
    refine ⟨?_, by simp [isWs, h5, h6, h7, h8], h4⟩
    rw [startValue, if_neg h1, if_neg h2, if_neg h3, if_pos hc]
  obtain ⟨h1, h2, h3⟩ := key c hc stack
  have e : jsonStep (m, stack) c = some ((.inBare [c], stack), []) := by
    rcases hm with rfl | rfl
    · simp [jsonStep, jsonStepOut, h2, h1]
    · simp [jsonStep, jsonStepOut, h2, h1, h3]
  rw [List.cons_append, run_cons_eq e, emit_nil, run_append_eq (run_inBare [c] t stack ht), emit_nil]
  have hws : ∀ stack, jsonStep (afterValue stack, stack) d = jsonStepOut (afterValue stack) stack d := by
    intro stack
    unfold afterValue
    cases stack <;> rfl
  have e2 : jsonStep (.inBare ([c] ++ t), stack) d =
      match jsonStepOut (afterValue stack) stack d with
      | none => none
      | some (s', ev) => some (s', .bare (c :: t) :: ev) := by
    simp only [jsonStep, hd, ↓reduceIte, List.singleton_append, hb]
    cases jsonStepOut (afterValue stack) stack d <;> rfl
  rw [run, run, e2, hws]
  cases jsonStepOut (afterValue stack) stack d with
  | none => rfl
  | some p =>
    obtain ⟨s', ev⟩ := p
    dsimp only
    cases hr : run jsonStep s' rest with
    | none => simp [emit]
    | some q => obtain ⟨a, b⟩ := q; simp [emit, JVal.events]

theorem dec_shape (n : Nat) : dec n = [48] ∨ ∃ c cs, dec n = c :: cs ∧ isDigit c = true ∧ c ≠ 48 ∧
    ∀ d ∈ cs, isDigit d = true := by
  induction n using Nat.strongRecOn with
  | _ n ih =>
    by_cases h : n < 10
    · have e : dec n = [digitLower n] := by unfold dec; rw [digitsOf_lt h]; rfl
      rw [e]
      have key : ∀ n < 10, digitLower n = 48 ∨ isDigit (digitLower n) = true ∧ digitLower n ≠ 48 := by decide
      rcases key n h with h | h
      · rw [h]; exact Or.inl rfl
      · exact Or.inr ⟨_, [], rfl, h.1, h.2, by simp⟩
    · have e : dec n = dec (n / 10) ++ [digitLower (n % 10)] := by
        unfold dec; rw [digitsOf_ge (by omega) h, List.map_append]; rfl
      have hd : isDigit (digitLower (n % 10)) = true := by
        have key : ∀ n < 10, isDigit (digitLower n) = true := by decide
        exact key _ (Nat.mod_lt _ (by omega))
      right
      rcases ih (n / 10) (by omega) with h0 | ⟨c, cs, h1, h2, h3, h4⟩
      · exfalso
        have := readDigits_dec (n / 10)
        rw [h0] at this
        have : n / 10 = 0 := by simpa [readDigits, digitVal] using this.symm
        omega
      · refine ⟨c, cs ++ [digitLower (n % 10)], by rw [e, h1]; rfl, h2, h3, ?_⟩
        intro d hd'
        rcases List.mem_append.1 hd' with h | h
        · exact h4 d h
        · rw [List.mem_singleton.1 h]; exact hd

theorem dropWhile_all {cs : Bytes} (h : ∀ d ∈ cs, isDigit d = true) : cs.dropWhile isDigit = [] := by
  induction cs with
  | nil => rfl
  | cons c cs ih =>
    rw [List.dropWhile_cons_of_pos (h c (by simp))]
    exact ih fun d hd => h d (by simp [hd])

theorem digit_not_delim {c : UInt8} (h : isDigit c = true) : isDelim c = false := by
  simp only [isDigit, Bool.and_eq_true, decide_eq_true_eq, UInt8.le_iff_toNat_le] at h
  have hn : ∀ d : UInt8, d.toNat < 48 ∨ 57 < d.toNat → (c == d) = false := by
    intro d hd
    rw [beq_eq_false_iff_ne]
    rintro rfl
    have h1 : (48 : UInt8).toNat = 48 := rfl
    have h2 : (57 : UInt8).toNat = 57 := rfl
    omega
  simp [isDelim, isWs, hn 32 (by decide), hn 9 (by decide), hn 10 (by decide), hn 13 (by decide), hn 44 (by decide),
    hn 93 (by decide), hn 125 (by decide)]

theorem jreads_nat (n : Nat) : JReads (dec n) (.nat n) := by
  unfold JVal.nat
  rcases dec_shape n with h | ⟨c, cs, h, hc, h0, hcs⟩
  · rw [h]
    exact jreads_bare (by decide) (by simp) (by decide)
  · rw [h]
    refine jreads_bare (by simp [hc]) (fun d hd => digit_not_delim (hcs d hd)) ?_
    have h45 : c ≠ 45 := by rintro rfl; exact absurd hc (by decide)
    have : jsonNumber (c :: cs) = true := by
      unfold jsonNumber
      simp only [List.head?_cons, Option.some.injEq, h45, ↓reduceIte]
      rw [hc, dropWhile_all hcs]; rfl
    simp [jsonBare, this]

/-! ### Objects and arrays -/

theorem run_ws {m : JMode} {stack : List Bool} (hm : m = .value ∨ m = .valueOrEnd ∨ m = .keyOrEnd ∨ m = .key ∨ m = .colon ∨ m = .after)
    (w : Bytes) (h : w.all isWs = true) : run jsonStep (m, stack) w = some ((m, stack), []) := by
  induction w with
  | nil => rfl
  | cons c w ih =>
    rw [List.all_cons, Bool.and_eq_true] at h
    have e : jsonStep (m, stack) c = some ((m, stack), []) := by
      rcases hm with rfl | rfl | rfl | rfl | rfl | rfl <;> simp [jsonStep, jsonStepOut, h.1]
    rw [run_cons_eq e, ih h.2]; rfl

/-- A member of an object as text: white space, key, what stands between key and value, value. -/
structure JMember where
  pre : Bytes := []
  key : Bytes
  mid : Bytes := b!":"
  val : Bytes

def JMember.text (m : JMember) : Bytes := m.pre ++ b!"\"" ++ m.key ++ b!"\"" ++ m.mid ++ m.val

/-- The member is read as a key and a value. -/
structure JMember.Reads (m : JMember) (p : Bytes × JVal) : Prop where
  pre : m.pre.all isWs = true
  key : jsonPlain m.key = true
  keyEq : m.key = p.1
  mid : ∃ a b, m.mid = a ++ 58 :: b ∧ a.all isWs = true ∧ b.all isWs = true
  val : JReads m.val p.2

def membersText : List JMember → Bytes
  | [] => []
  | [m] => m.text
  | m :: m' :: ms => m.text ++ b!"," ++ membersText (m' :: ms)

theorem run_member {m : JMember} {p : Bytes × JVal} (h : m.Reads p) {mode : JMode} (hm : mode = .keyOrEnd ∨ mode = .key)
    (stack : List Bool) (c : UInt8) (rest : Bytes) (hc : isDelim c = true) :
    run jsonStep (mode, true :: stack) (m.text ++ c :: rest) =
      emit (.key (p.1.map UInt8.toNat) :: p.2.events) (run jsonStep (.after, true :: stack) (c :: rest)) := by
  obtain ⟨hpre, hkey, hkeyEq, ⟨a, b, hmid, ha, hb⟩, hval⟩ := h
  have e1 := run_ws (m := mode) (stack := true :: stack) (by rcases hm with rfl | rfl <;> simp) m.pre hpre
  have e2 : jsonStep (mode, true :: stack) 34 = some ((.inStr true [] false, true :: stack), []) := by
    rcases hm with rfl | rfl <;> rfl
  have e3 := run_jsonStr true (true :: stack) m.key _ (jsonBody_plain m.key hkey)
  have e4 := run_ws (m := .colon) (stack := true :: stack) (by simp) a ha
  have e5 : jsonStep (.colon, true :: stack) 58 = some ((.value, true :: stack), []) := rfl
  have e6 := run_ws (m := .value) (stack := true :: stack) (by simp) b hb
  have e7 := hval .value (true :: stack) c rest (Or.inl rfl) hc
  have shape : m.text ++ c :: rest =
      m.pre ++ (34 :: ((m.key ++ [34]) ++ (a ++ (58 :: (b ++ (m.val ++ c :: rest)))))) := by
    unfold JMember.text
    rw [hmid]
    simp
  rw [shape, run_append_eq e1, run_cons_eq e2, run_append_eq e3, run_append_eq e4, run_cons_eq e5, run_append_eq e6, e7]
  simp only [emit_emit, hkeyEq, afterValue, List.isEmpty_cons]
  rfl

theorem run_members (ms : List JMember) : ∀ (ps : List (Bytes × JVal)), Pointwise JMember.Reads ms ps →
    ∀ (mode : JMode), (mode = .keyOrEnd ∨ mode = .key ∧ ms ≠ []) → ∀ (stack : List Bool) (rest : Bytes),
    run jsonStep (mode, true :: stack) (membersText ms ++ 125 :: rest) =
      emit (JVal.memberEvents ps) (run jsonStep (.after, true :: stack) (125 :: rest)) := by
  induction ms with
  | nil =>
    intro ps h mode hm stack rest
    cases h
    rcases hm with rfl | ⟨_, h⟩
    · rw [JVal.memberEvents, emit_nil]; rfl
    · exact absurd rfl h
  | cons m ms ih =>
    intro ps h mode hm stack rest
    cases h with
    | cons hp hps =>
      rename_i p ps
      have hm' : mode = .keyOrEnd ∨ mode = .key := by
        rcases hm with h | h
        · exact Or.inl h
        · exact Or.inr h.1
      have hev : JVal.memberEvents (p :: ps) = (.key (p.1.map UInt8.toNat) :: p.2.events) ++ JVal.memberEvents ps := by
        obtain ⟨k, v⟩ := p
        rw [JVal.memberEvents]
      rw [hev]
      cases ms with
      | nil =>
        cases hps
        rw [membersText, run_member hp hm' stack 125 rest rfl, JVal.memberEvents, List.append_nil]
      | cons m' ms =>
        rw [membersText, List.append_assoc, List.append_assoc, List.singleton_append, run_member hp hm' stack 44 _ rfl]
        have e : jsonStep (.after, true :: stack) 44 = some ((.key, true :: stack), []) := rfl
        rw [run_cons_eq e, emit_nil, ih ps hps .key (Or.inr ⟨rfl, by simp⟩), emit_emit]

def objText (ms : List JMember) : Bytes := b!"{" ++ membersText ms ++ b!"}"

theorem jclosed_obj {ms : List JMember} {ps : List (Bytes × JVal)} (h : Pointwise JMember.Reads ms ps) :
    JClosed (objText ms) (.obj ps) := by
  intro m stack hm
  have e1 : jsonStep (m, stack) 123 = some ((.keyOrEnd, true :: stack), [.startObj]) := by
    rcases hm with rfl | rfl <;> rfl
  have e2 : run jsonStep (.after, true :: stack) [125] = some ((afterValue stack, stack), [.endObj]) := rfl
  show run jsonStep (m, stack) (123 :: (membersText ms ++ [125])) = _
  rw [run_cons_eq e1, run_members ms ps h .keyOrEnd (Or.inl rfl), e2, JVal.events]
  simp [emit]

/-- Texts separated by commas. -/
def itemsText : List Bytes → Bytes
  | [] => []
  | [x] => x
  | x :: y :: rest => x ++ b!"," ++ itemsText (y :: rest)

theorem run_items (ts : List Bytes) : ∀ (vs : List JVal), Pointwise JReads ts vs →
    ∀ (mode : JMode), (mode = .valueOrEnd ∨ mode = .value ∧ ts ≠ []) → ∀ (stack : List Bool) (rest : Bytes),
    run jsonStep (mode, false :: stack) (itemsText ts ++ 93 :: rest) =
      emit (JVal.itemEvents vs) (run jsonStep (.after, false :: stack) (93 :: rest)) := by
  induction ts with
  | nil =>
    intro vs h mode hm stack rest
    cases h
    rcases hm with rfl | ⟨_, h⟩
    · rw [JVal.itemEvents, emit_nil]; rfl
    · exact absurd rfl h
  | cons t ts ih =>
    intro vs h mode hm stack rest
    cases h with
    | cons hp hps =>
      rename_i v vs
      have hm' : mode = .value ∨ mode = .valueOrEnd := by
        rcases hm with h | h
        · exact Or.inr h
        · exact Or.inl h.1
      rw [JVal.itemEvents]
      cases ts with
      | nil =>
        cases hps
        rw [itemsText, hp mode (false :: stack) 93 rest hm' rfl, JVal.itemEvents, List.append_nil]; rfl
      | cons t' ts =>
        rw [itemsText, List.append_assoc, List.append_assoc, List.singleton_append,
          hp mode (false :: stack) 44 _ hm' rfl]
        have e : jsonStep (afterValue (false :: stack), false :: stack) 44 = some ((.value, false :: stack), []) := rfl
        rw [run_cons_eq e, emit_nil, ih vs hps .value (Or.inr ⟨rfl, by simp⟩), emit_emit]

def arrText (ts : List Bytes) : Bytes := b!"[" ++ itemsText ts ++ b!"]"

theorem jclosed_arr {ts : List Bytes} {vs : List JVal} (h : Pointwise JReads ts vs) : JClosed (arrText ts) (.arr vs) := by
  intro m stack hm
  have e1 : jsonStep (m, stack) 91 = some ((.valueOrEnd, false :: stack), [.startArr]) := by
    rcases hm with rfl | rfl <;> rfl
  have e2 : run jsonStep (.after, false :: stack) [93] = some ((afterValue stack, stack), [.endArr]) := rfl
  show run jsonStep (m, stack) (91 :: (itemsText ts ++ [93])) = _
  rw [run_cons_eq e1, run_items ts vs h .valueOrEnd (Or.inl rfl), e2, JVal.events]
  simp [emit]

/-! ### XML -/

/-- `t` is read as the content `vs` inside an element. -/
def XReads (t : Bytes) (vs : List XVal) : Prop :=
  ∀ n stack, run xmlStep (.text, n :: stack) t = some ((.text, n :: stack), XVal.listEvents vs)

theorem XVal.listEvents_append (a b : List XVal) : XVal.listEvents (a ++ b) = XVal.listEvents a ++ XVal.listEvents b := by
  induction a with
  | nil => rfl
  | cons x a ih => rw [List.cons_append, XVal.listEvents, XVal.listEvents, ih, List.append_assoc]

theorem xreads_nil : XReads [] [] := fun _ _ => rfl

theorem XReads.append {s t : Bytes} {a b : List XVal} (ha : XReads s a) (hb : XReads t b) : XReads (s ++ t) (a ++ b) := by
  intro n stack
  rw [XVal.listEvents_append]
  exact run_append (ha n stack) (hb n stack)

def elemText (name content : Bytes) : Bytes := b!"<" ++ name ++ b!">" ++ content ++ b!"</" ++ name ++ b!">"

theorem run_openName (raw t : Bytes) (stack : List Bytes) (h : ∀ c ∈ t, c ≠ 62) :
    run xmlStep (.openName raw, stack) t = some ((.openName (raw ++ t), stack), []) := by
  induction t generalizing raw with
  | nil => simp [run]
  | cons c t ih =>
    have hc := h c (by simp)
    have e : xmlStep (.openName raw, stack) c = some ((.openName (raw ++ [c]), stack), []) := by
      simp [xmlStep, hc]
    rw [run_cons_eq e, ih _ fun d hd => h d (by simp [hd]), List.append_assoc]
    rfl

theorem run_closeName (raw t : Bytes) (stack : List Bytes) (h : ∀ c ∈ t, c ≠ 62) :
    run xmlStep (.closeName raw, stack) t = some ((.closeName (raw ++ t), stack), []) := by
  induction t generalizing raw with
  | nil => simp [run]
  | cons c t ih =>
    have hc := h c (by simp)
    have e : xmlStep (.closeName raw, stack) c = some ((.closeName (raw ++ [c]), stack), []) := by
      simp [xmlStep, hc]
    rw [run_cons_eq e, ih _ fun d hd => h d (by simp [hd]), List.append_assoc]
    rfl

theorem name_chars {n : Bytes} (h : isName n = true) : ∃ c cs, n = c :: cs ∧ c ≠ 47 ∧ c ≠ 33 ∧ ∀ d ∈ c :: cs, d ≠ 62 := by
  cases n with
  | nil => cases h
  | cons c cs =>
    rw [isName, Bool.and_eq_true, List.all_eq_true] at h
    refine ⟨c, cs, rfl, ?_, ?_, ?_⟩
    · rintro rfl; exact absurd h.1 (by decide)
    · rintro rfl; exact absurd h.1 (by decide)
    · intro d hd
      rcases List.mem_cons.1 hd with rfl | hd
      · rintro rfl; exact absurd h.1 (by decide)
      · rintro rfl; exact absurd (h.2 _ hd) (by decide)

/-- An element inside another, or the root. -/
theorem run_elem {n t : Bytes} {vs : List XVal} (hn : isName n = true) (h : XReads t vs) (stack : List Bytes) :
    run xmlStep (.text, stack) (elemText n t) =
      some ((if stack.isEmpty then .fin else .text, stack), (XVal.elem n vs).events) := by
  obtain ⟨c, cs, rfl, h1, h2, h3⟩ := name_chars hn
  have e1 : xmlStep (.text, stack) 60 = some ((.lt, stack), []) := rfl
  have e2 : xmlStep (.lt, stack) c = some ((.openName [c], stack), []) := by simp [xmlStep, h1, h2]
  have e3 := run_openName [c] cs stack fun d hd => h3 d (by simp [hd])
  have e4 : xmlStep (.openName ([c] ++ cs), stack) 62 = some ((.text, (c :: cs) :: stack), [.opened (c :: cs)]) := by
    simp [xmlStep, hn]
  have e5 := h (c :: cs) stack
  have e6 : xmlStep (.text, (c :: cs) :: stack) 60 = some ((.lt, (c :: cs) :: stack), []) := rfl
  have e7 : xmlStep (.lt, (c :: cs) :: stack) 47 = some ((.closeName [], (c :: cs) :: stack), []) := rfl
  have e8 := run_closeName [] (c :: cs) ((c :: cs) :: stack) h3
  have e9 : xmlStep (.closeName ([] ++ (c :: cs)), (c :: cs) :: stack) 62 =
      some ((if stack.isEmpty then .fin else .text, stack), [.closed (c :: cs)]) := by
    simp [xmlStep]
  have shape : elemText (c :: cs) t = 60 :: c :: (cs ++ 62 :: (t ++ 60 :: 47 :: ((c :: cs) ++ [62]))) := by
    unfold elemText; simp
  rw [shape, run_cons_eq e1, run_cons_eq e2, run_append_eq e3, run_cons_eq e4, run_append_eq e5, run_cons_eq e6,
    run_cons_eq e7, run_append_eq e8, run_cons_eq e9, XVal.events]
  simp [emit, run]

theorem xreads_elem {n t : Bytes} {vs : List XVal} (hn : isName n = true) (h : XReads t vs) :
    XReads (elemText n t) [.elem n vs] := by
  intro m stack
  rw [run_elem hn h]
  simp [XVal.listEvents]

/-- Characters that stand for themselves between XML tags. -/
def xmlVerbatim (s : Bytes) : Bool := s.all fun c => 32 ≤ c && c < 128 && c != 38 && c != 60

theorem xreads_chars {s : Bytes} (h : xmlVerbatim s = true) : XReads s [.chars (s.map UInt8.toNat)] := by
  intro n stack
  induction s with
  | nil => rfl
  | cons c s ih =>
    simp only [xmlVerbatim, List.all_cons, Bool.and_eq_true, decide_eq_true_eq, bne_iff_ne] at h
    obtain ⟨⟨⟨⟨h1, h2⟩, h3⟩, h4⟩, h5⟩ := h
    have hx : isXmlChar c.toNat = true := by
      have : 32 ≤ c.toNat := h1
      simp [isXmlChar, this]
    have e : xmlStep (.text, n :: stack) c = some ((.text, n :: stack), [.char c.toNat]) := by
      simp [xmlStep, h4, h3, hx, h2]
    rw [run_cons_eq e, ih (by simpa [xmlVerbatim] using h5)]
    simp [emit, XVal.listEvents, XVal.events]

theorem xreads_leaf {n s : Bytes} (hn : isName n = true) (h : xmlVerbatim s = true) :
    XReads (elemText n s) [.leaf n s] := xreads_elem hn (xreads_chars h)

theorem xreads_flatten {ts : List Bytes} {vs : List XVal} (h : Pointwise (fun t v => XReads t [v]) ts vs) :
    XReads ts.flatten vs := by
  induction h with
  | nil => exact xreads_nil
  | cons h _ ih =>
    rw [List.flatten_cons]
    exact h.append ih

theorem JClosed.of {t t' : Bytes} {v v' : JVal} (h : JClosed t v) (ht : t' = t) (hv : v' = v) : JClosed t' v' := by
  rw [ht, hv]; exact h
theorem XReads.of {t t' : Bytes} {vs vs' : List XVal} (h : XReads t vs) (ht : t' = t) (hv : vs' = vs) : XReads t' vs' := by
  rw [ht, hv]; exact h

end Fileid
