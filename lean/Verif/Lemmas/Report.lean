import Verif.Lemmas.AsfFile
import Verif.Lemmas.Propset
import Verif.Spec.Report
import Verif.Props.Output
import Verif.Model.Oless
import Verif.Lemmas.Workbook

/-!
# Lemmas about the texts of reports
-/

namespace Fileid.Report

open Common Spec Spec.Report

theorem _root_.Fileid.Spec.Report.Clear.json {s : Bytes} (h : Clear s) : jsonPlain s = true :=
  (Asf.Plain.of_mem fun c hc => ⟨(h c hc).1, (h c hc).2.1, (h c hc).2.2.1, (h c hc).2.2.2.1, (h c hc).2.2.2.2.1, (h c hc).2.2.2.2.2.1⟩).1
theorem _root_.Fileid.Spec.Report.Clear.xml {s : Bytes} (h : Clear s) : xmlVerbatim s = true :=
  (Asf.Plain.of_mem fun c hc => ⟨(h c hc).1, (h c hc).2.1, (h c hc).2.2.1, (h c hc).2.2.2.1, (h c hc).2.2.2.2.1, (h c hc).2.2.2.2.2.1⟩).2

theorem _root_.Fileid.Spec.Report.Clear.append {s t : Bytes} (hs : Clear s) (ht : Clear t) : Clear (s ++ t) := by
  intro c hc
  rcases List.mem_append.1 hc with h | h
  · exact hs c h
  · exact ht c h

theorem clear_dec (n : Nat) : Clear (dec n) := by
  intro c hc
  obtain ⟨k, hk, rfl⟩ := Asf.dec_mem hc
  obtain ⟨h1, h2, h3, h4, h5, h6⟩ := Asf.digit_props k hk
  have h7 : ∀ n < 16, digitLower n ≠ 62 := by decide
  exact ⟨by omega, h2, h3, h4, h5, h6, h7 k hk⟩

theorem clear_setw0 {w : Nat} {s : Bytes} (h : Clear s) : Clear (setw0 w s) := by
  unfold setw0
  refine Clear.append ?_ h
  intro c hc
  rw [List.mem_replicate] at hc
  rw [hc.2]
  decide

theorem clear_bin2hex (b : Bytes) : Clear (bin2hex b) := by
  intro c hc
  have h := Props.C08_hexdump_digits b c hc
  simp only [isLowerHex, Bool.or_eq_true, Bool.and_eq_true, decide_eq_true_eq, UInt8.le_iff_toNat_le] at h
  refine ⟨?_, ?_, ?_, ?_, ?_, ?_, ?_⟩
  · simp at h; omega
  · simp at h; omega
  all_goals intro hc; subst hc; simp at h

theorem membersText_cons (m : JMember) (ms : List JMember) :
    membersText (m :: ms) = m.text ++ (ms.map fun m => b!"," ++ m.text).flatten := by
  induction ms generalizing m with
  | nil => simp [membersText]
  | cons m' ms ih =>
    rw [membersText, ih m']
    simp

theorem vectorJoinLoop_items (q : Bool) (x : Bytes) (xs : List Bytes) (first : Bool) :
    vectorJoinLoop b!"," q first (x :: xs) =
      (if first then [] else b!",") ++ itemsText ((x :: xs).map fun x => if q then b!"\"" ++ x ++ b!"\"" else x) := by
  induction xs generalizing x first with
  | nil => simp [vectorJoinLoop, itemsText]
  | cons y ys ih =>
    rw [vectorJoinLoop, ih y false]
    simp [itemsText]

theorem vectorJoin_items (xs : List Bytes) (q : Bool) :
    vectorJoin xs b!"," q = itemsText (xs.map fun x => if q then b!"\"" ++ x ++ b!"\"" else x) := by
  cases xs with
  | nil => rfl
  | cons x xs => unfold vectorJoin; rw [vectorJoinLoop_items]; rfl

theorem vectorJoin_plain (xs : List Bytes) : vectorJoin xs b!"," = itemsText xs := by
  rw [vectorJoin_items]; simp

theorem arr_join {xs : List Bytes} {vs : List JVal} (h : Pointwise JReads xs vs) :
    JClosed (b!"[" ++ vectorJoin xs b!"," ++ b!"]") (.arr vs) := by
  rw [vectorJoin_plain]; exact jclosed_arr h

theorem jclosed_esc (s : Bytes) :
    JClosed (b!"\"" ++ JsonEscape s ++ b!"\"") (.str ((s.takeWhile (· ≠ 0)).map UInt8.toNat)) :=
  jclosed_str (Props.C10_json_escape_reads_prefix s)

theorem takeWhile_clear {s : Bytes} (h : Clear s) : s.takeWhile (· ≠ 0) = s := by
  induction s with
  | nil => rfl
  | cons c s ih =>
    have h0 : c ≠ 0 := by
      have := (h c (by simp)).1
      intro h0; subst h0; simp at this
    rw [List.takeWhile_cons_of_pos (by simpa using h0), ih fun d hd => h d (by simp [hd])]

theorem jclosed_esc_clear {s : Bytes} (h : Clear s) : JClosed (b!"\"" ++ JsonEscape s ++ b!"\"") (.text s) := by
  have := jclosed_esc s
  rw [takeWhile_clear h] at this
  exact this

theorem _root_.Fileid.Spec.Pointwise.map_left {α β γ : Type} {R : γ → β → Prop} {f : α → γ} {as : List α} {bs : List β}
    (h : Pointwise (fun a b => R (f a) b) as bs) : Pointwise R (as.map f) bs := by
  induction h with
  | nil => exact .nil
  | cons h _ ih => exact .cons h ih

theorem _root_.Fileid.Spec.Pointwise.append {α β : Type} {R : α → β → Prop} {as as' : List α} {bs bs' : List β}
    (h : Pointwise R as bs) (h' : Pointwise R as' bs') : Pointwise R (as ++ as') (bs ++ bs') := by
  induction h with
  | nil => exact h'
  | cons h _ ih => exact .cons h ih

theorem _root_.Fileid.Spec.Pointwise.exists {α β : Type} {R : α → β → Prop} {as : List α} (h : ∀ a ∈ as, ∃ b, R a b) :
    ∃ bs, Pointwise R as bs := by
  induction as with
  | nil => exact ⟨[], .nil⟩
  | cons a as ih =>
    obtain ⟨b, hb⟩ := h a (by simp)
    obtain ⟨bs, hbs⟩ := ih fun a ha => h a (by simp [ha])
    exact ⟨b :: bs, .cons hb hbs⟩

theorem _root_.Fileid.Spec.Pointwise.imp {α β : Type} {R S : α → β → Prop} (hi : ∀ a b, R a b → S a b) {as : List α} {bs : List β}
    (h : Pointwise R as bs) : Pointwise S as bs := by
  induction h with
  | nil => exact .nil
  | cons h _ ih => exact .cons (hi _ _ h) ih

/-! ## The members every result has -/

/-- A member written `, "key":"text"`, left out for an empty text. -/
def optMember (m : JMember) (text : Bytes) : List JMember := if text.length > 0 then [m] else []

def baseMembers (e : ExtInfo) : List JMember :=
  { key := b!"extension", mid := b!" : ", val := b!"\"" ++ e.Extension ++ b!"\"" } ::
  (optMember { pre := b!" ", key := b!"name", val := b!"\"" ++ e.Name ++ b!"\"" } e.Name ++
   optMember { pre := b!" ", key := b!"subtype", val := b!"\"" ++ JsonEscape e.SubType ++ b!"\"" } e.SubType ++
   (if e.Version > 0 then [{ pre := b!" ", key := b!"version", mid := b!" : ", val := b!"\"" ++ dec e.Version ++ b!"\"" }] else []) ++
   optMember { pre := b!" ", key := b!"versionname", mid := b!" : ", val := b!"\"" ++ e.VersionName ++ b!"\"" } e.VersionName)

theorem flatten_opt (p : Prop) [Decidable p] (m : JMember) :
    ((if p then [m] else []).map fun m : JMember => b!"," ++ m.text).flatten = if p then b!"," ++ m.text else [] := by
  split <;> simp

theorem baseMembers_text (e : ExtInfo) : membersText (baseMembers e) = e.buildBaseJson := by
  unfold baseMembers ExtInfo.buildBaseJson optMember
  rw [membersText_cons]
  simp only [List.map_append, List.flatten_append, flatten_opt]
  simp only [JMember.text, List.append_assoc, List.cons_append, List.nil_append]

/-- What is known of the texts of a result. -/
structure ClearInfo (e : ExtInfo) : Prop where
  ext : Clear e.Extension
  name : Clear e.Name
  sub : Clear e.SubType
  vname : Clear e.VersionName

theorem opt_reads {m : JMember} {text key : Bytes} (h : m.Reads (key, .text text)) :
    Pointwise JMember.Reads (optMember m text) (given key text) := by
  unfold optMember given
  cases text with
  | nil => exact .nil
  | cons c cs => exact .cons h .nil

theorem baseMembers_reads {e : ExtInfo} (h : ClearInfo e) : Pointwise JMember.Reads (baseMembers e) (identity e) := by
  unfold baseMembers identity
  refine .cons ⟨rfl, rfl, rfl, ⟨b!" ", b!" ", rfl, rfl, rfl⟩, (jclosed_text h.ext.json).reads⟩ ?_
  refine Pointwise.append (Pointwise.append (Pointwise.append ?_ ?_) ?_) ?_
  · exact opt_reads ⟨rfl, rfl, rfl, ⟨[], [], rfl, rfl, rfl⟩, (jclosed_text h.name.json).reads⟩
  · exact opt_reads ⟨rfl, rfl, rfl, ⟨[], [], rfl, rfl, rfl⟩, (jclosed_esc_clear h.sub).reads⟩
  · by_cases hv : e.Version = 0
    · rw [if_neg (by omega), if_pos hv]; exact .nil
    · rw [if_pos (by omega), if_neg hv]
      exact .cons ⟨rfl, rfl, rfl, ⟨b!" ", b!" ", rfl, rfl, rfl⟩, (jclosed_text (clear_dec _).json).reads⟩ .nil
  · exact opt_reads ⟨rfl, rfl, rfl, ⟨b!" ", b!" ", rfl, rfl, rfl⟩, (jclosed_text h.vname.json).reads⟩

/-! ## Properties -/

theorem clear_lit (s : Bytes) (h : decide (Clear s) = true) : Clear s := of_decide_eq_true h

theorem clear_duration (n : Nat) : Clear (displayDuration n) := by
  unfold displayDuration
  dsimp only
  refine (((((clear_setw0 (clear_dec _)).append (clear_lit _ (by decide))).append (clear_setw0 (clear_dec _))).append
    (clear_lit _ (by decide))).append (clear_setw0 (clear_dec _))).append ?_
  split
  · exact ((clear_lit _ (by decide)).append (clear_setw0 (clear_dec _))).append (clear_setw0 (clear_dec _))
  · exact fun c hc => absurd hc (by simp)

theorem clear_fileTime (o : Bool) (n : Nat) : Clear (FileTimeToString o n) := by
  unfold FileTimeToString
  dsimp only
  split
  · split
    · unfold strftimeFT
      have w2 := fun k => clear_setw0 (w := 2) (clear_dec k)
      exact (((((((((((clear_dec _).append (clear_lit _ (by decide))).append (w2 _)).append (clear_lit _ (by decide))).append
        (w2 _)).append (clear_lit _ (by decide))).append (w2 _)).append (clear_lit _ (by decide))).append (w2 _)).append
        (clear_lit _ (by decide))).append (w2 _))
    · exact clear_lit _ (by decide)
  · exact clear_lit _ (by decide)

theorem clear_lookup {t : List (Nat × Bytes)} (ht : ∀ e ∈ t, Clear e.2) (k : Nat) {d : Bytes} (hd : Clear d) :
    Clear ((Tables.lookup t k).getD d) := by
  cases h : Tables.lookup t k with
  | none => exact hd
  | some v => exact ht _ (Propset.lookup_some_mem h)

theorem clear_propertyName (f : Propset.FormatId) (k : Nat) : Clear (Propset.PropertyIdentifierToString f k) := by
  have hd : Clear (b!"Unknown Property Identifier (" ++ dec k ++ b!")") :=
    ((clear_lit _ (by decide)).append (clear_dec _)).append (clear_lit _ (by decide))
  unfold Propset.PropertyIdentifierToString
  dsimp only
  split
  · exact clear_lookup (by decide +kernel) k hd
  · exact clear_lookup (by decide +kernel) k hd
  · exact hd
  · exact hd

theorem clear_typeName (k : Nat) : Clear (Propset.PropertyTypeToString k) := by
  unfold Propset.PropertyTypeToString
  exact clear_lookup (by decide +kernel) k
    (((clear_lit _ (by decide)).append (clear_dec _)).append (clear_lit _ (by decide)))

/-- What is assumed of the library: real numbers are written as JSON numbers. -/
def NumberReal (real : Propset.Real → Bytes) (p : Propset.Property) : Prop :=
  ∀ r, p.value = .float r → jsonNumber (real r) = true ∧ ∀ c ∈ real r, isDelim c = false

theorem jsonNumber_head {s : Bytes} (h : jsonNumber s = true) : ∃ c t, s = c :: t ∧ (isDigit c = true ∨ c = 45) := by
  cases s with
  | nil => simp [jsonNumber] at h
  | cons c t =>
    refine ⟨c, t, rfl, ?_⟩
    by_cases hc : c = 45
    · exact Or.inr hc
    · left
      unfold jsonNumber at h
      rw [if_neg (by simpa using hc)] at h
      split at h
      · cases h
      · rename_i heq
        injection heq with h1 h2
        rw [h1]; decide
      · rename_i heq
        injection heq with h1 h2
        rw [h1]
        simp only [Bool.and_eq_true] at h
        exact h.1

theorem jreads_number {s : Bytes} (h : jsonNumber s = true) (hd : ∀ c ∈ s, isDelim c = false) : JReads s (.bare s) := by
  obtain ⟨c, t, rfl, hc⟩ := jsonNumber_head h
  refine jreads_bare ?_ (fun d hd' => hd d (by simp [hd'])) (by simp [jsonBare, h])
  rcases hc with hc | rfl
  · simp [hc]
  · rfl

theorem value_reads (env : Propset.Env) (p : Propset.Property) (h : NumberReal env.real p) :
    ∃ v, JReads (Propset.valueJson env p) v ∧ ValueShown env.real p v := by
  unfold Propset.valueJson ValueShown
  cases hv : p.value with
  | none => exact ⟨_, (jclosed_text (s := b!"unknown") (by decide)).reads, rfl⟩
  | str s => exact ⟨_, (jclosed_esc s).reads, rfl⟩
  | float r =>
    obtain ⟨h1, h2⟩ := h r hv
    exact ⟨_, jreads_number h1 h2, rfl⟩
  | int n =>
    dsimp only
    split
    · split
      · exact ⟨_, (jclosed_text (clear_duration n).json).reads, _, rfl⟩
      · exact ⟨_, (jclosed_text (clear_fileTime _ n).json).reads, _, rfl⟩
    · exact ⟨_, jreads_nat n, rfl⟩
  | bool b =>
    cases b
    · exact ⟨_, jreads_bare (c := 102) (t := b!"alse") rfl (by decide) (by decide), rfl⟩
    · exact ⟨_, jreads_bare (c := 116) (t := b!"rue") rfl (by decide) (by decide), rfl⟩

theorem property_reads (env : Propset.Env) (p : Propset.Property) (h : NumberReal env.real p) :
    ∃ v, JReads (p.toJson env) v ∧ PropertyShown env.real p v := by
  obtain ⟨v, h1, h2⟩ := value_reads env p h
  refine ⟨_, ?_, v, h2, rfl⟩
  have := jclosed_obj (ms := [
    { key := b!"Property", val := b!"\"" ++ Propset.PropertyIdentifierToString p.FMTID p.PID ++ b!"\"" },
    { key := b!"Type", val := b!"\"" ++ Propset.PropertyTypeToString p.type ++ b!"\"" },
    { key := b!"Value", val := Propset.valueJson env p }])
    (.cons (Asf.member rfl (jclosed_text (clear_propertyName p.FMTID p.PID).json).reads)
      (.cons (Asf.member rfl (jclosed_text (clear_typeName p.type).json).reads) (.cons (Asf.member rfl h1) .nil)))
  refine JClosed.reads (JClosed.of this ?_ rfl)
  simp only [Propset.Property.toJson, objText, membersText, JMember.text, List.append_assoc, List.cons_append, List.nil_append]

theorem name_reads {abi : Abi} {units : List Nat} {s : Bytes} (h : Excel.convert abi units = .ok s) :
    ∃ v, JReads (b!"\"" ++ JsonEscape s ++ b!"\"") v ∧ NameShown units v := by
  refine ⟨_, (jclosed_esc s).reads, _, rfl, ?_⟩
  intro hu
  rw [Propset.convert_ascii abi units fun u hm => (hu u hm).2] at h
  injection h with h
  subst h
  clear abi
  induction units with
  | nil => rfl
  | cons u us ih =>
    obtain ⟨h0, h1⟩ := hu u (by simp)
    have e : (UInt8.ofNat u).toNat = u := by
      rw [UInt8.toNat_ofNat']; omega
    have hne : UInt8.ofNat u ≠ 0 := fun hz => by
      have := congrArg UInt8.toNat hz
      rw [e] at this
      simp at this; omega
    rw [List.map_cons, List.takeWhile_cons_of_pos (by simpa using hne), List.map_cons, e,
      ih fun v hv => hu v (by simp [hv])]

theorem mapRes_pointwise {α β : Type} {f : α → Res β} {l : List α} {bs : List β} (h : Oless.mapRes f l = .ok bs) :
    Pointwise (fun a b => f a = .ok b) l bs := by
  induction l generalizing bs with
  | nil => injection h with h; subst h; exact .nil
  | cons a l ih =>
    rw [Oless.mapRes] at h
    obtain ⟨b, hb, h'⟩ := Excel.bind_ok_inv h
    obtain ⟨bs', hbs, h''⟩ := Excel.bind_ok_inv h'
    injection h'' with h''
    subst h''
    exact .cons hb (ih hbs)

theorem pointwise_trans {α β γ : Type} {R : α → β → Prop} {S : β → γ → Prop} {T : α → γ → Prop} {as : List α} {bs : List β}
    (h : Pointwise R as bs) (hs : ∀ a ∈ as, ∀ b, R a b → ∃ c, S b c ∧ T a c) :
    ∃ cs, Pointwise S bs cs ∧ Pointwise T as cs := by
  induction h with
  | nil => exact ⟨[], .nil, .nil⟩
  | cons hr _ ih =>
    obtain ⟨c, h1, h2⟩ := hs _ (by simp) _ hr
    obtain ⟨cs, h3, h4⟩ := ih fun a ha b hb => hs a (by simp [ha]) b hb
    exact ⟨c :: cs, .cons h1 h3, .cons h2 h4⟩

theorem group_reads {abi : Abi} {env : Oless.Env} {g : List Nat × List Propset.Property} {t : Bytes}
    (h : Oless.groupJson abi env g = .ok t) (hr : ∀ p ∈ g.2, NumberReal env.props.real p) :
    ∃ v, JReads t v ∧ GroupShown env.props.real g v := by
  unfold Oless.groupJson at h
  obtain ⟨key, hk, h'⟩ := Excel.bind_ok_inv h
  injection h' with h'
  subst h'
  obtain ⟨nv, hn1, hn2⟩ := name_reads hk
  have hex : ∀ p ∈ g.2, ∃ v, JReads (p.toJson env.props) v ∧ PropertyShown env.props.real p v :=
    fun p hp => property_reads env.props p (hr p hp)
  obtain ⟨ps, hps⟩ := Pointwise.exists hex
  have h1 : Pointwise JReads (g.2.map (·.toJson env.props)) ps := Pointwise.map_left (hps.imp fun _ _ h => h.1)
  have h2 : Pointwise (PropertyShown env.props.real) g.2 ps := hps.imp fun _ _ h => h.2
  refine ⟨_, ?_, nv, ps, hn2, h2, rfl⟩
  have := jclosed_obj (ms := [
    { key := b!"Group", val := b!"\"" ++ JsonEscape key ++ b!"\"" },
    { key := b!"properties", mid := b!": ", val := b!"[" ++ vectorJoin (g.2.map (·.toJson env.props)) b!"," ++ b!"]" }])
    (.cons (Asf.member rfl hn1) (.cons (Asf.member_gap rfl (arr_join h1).reads) .nil))
  refine JClosed.reads (JClosed.of this ?_ rfl)
  simp only [objText, membersText, JMember.text, List.append_assoc, List.cons_append, List.nil_append]

/-- A path is shown without what follows a zero character. -/
theorem paths_reads {abi : Abi} {paths : List (List Nat)} {ts : List Bytes}
    (h : Oless.mapRes (Oless.pathText abi) paths = .ok ts) :
    ∃ vs, Pointwise JReads (ts.map fun p => b!"\"" ++ JsonEscape p ++ b!"\"") vs ∧
      Pointwise (fun p v => NameShown (p.takeWhile (· ≠ 0)) v) paths vs := by
  obtain ⟨vs, h1, h2⟩ := pointwise_trans (S := fun t v => JReads (b!"\"" ++ JsonEscape t ++ b!"\"") v)
    (T := fun p v => NameShown (p.takeWhile (· ≠ 0)) v) (mapRes_pointwise h) (fun p _ t ht => name_reads ht)
  exact ⟨vs, Pointwise.map_left h1, h2⟩

def pathMember (ts : List Bytes) : List JMember := match ts with
  | [] => []
  | _ => [{ pre := b!" ", key := b!"Paths", mid := b!": ",
            val := b!"[" ++ vectorJoin (ts.map fun p => b!"\"" ++ JsonEscape p ++ b!"\"") b!"," ++ b!"]" }]

def groupMember (ts : List Bytes) : List JMember := match ts with
  | [] => []
  | _ => [{ key := b!"properties", mid := b!": ", val := b!"[" ++ vectorJoin ts b!"," ++ b!"]" }]

theorem Pointwise_length {α β : Type} {R : α → β → Prop} {as : List α} {bs : List β} (h : Pointwise R as bs) :
    as.length = bs.length := by
  induction h with
  | nil => rfl
  | cons _ _ ih => simp [ih]

theorem base_reads {abi : Abi} {env : Oless.Env} {e : ExtInfo} {x : Oless.Extra} {t : Bytes} (he : ClearInfo e)
    (hr : ∀ g ∈ x.properties, ∀ p ∈ g.2, NumberReal env.props.real p) (h : Oless.baseJson abi env e x = .ok t) :
    ∃ m ms paths groups, t = membersText (m :: ms) ∧
      Pointwise JMember.Reads (m :: ms) (identity e ++ listed b!"Paths" paths ++ listed b!"properties" groups) ∧
      Pointwise (fun p v => NameShown (p.takeWhile (· ≠ 0)) v) x.paths paths ∧
      Pointwise (GroupShown env.props.real) x.properties groups := by
  unfold Oless.baseJson at h
  obtain ⟨pt, hp, h'⟩ := Excel.bind_ok_inv h
  obtain ⟨gt, hg, h''⟩ := Excel.bind_ok_inv h'
  injection h'' with h''
  obtain ⟨paths, hp1, hp2⟩ := paths_reads hp
  obtain ⟨groups, hg1, hg2⟩ := pointwise_trans (S := JReads) (T := GroupShown env.props.real) (mapRes_pointwise hg)
    (fun g hg t ht => group_reads ht (hr g hg))
  have lp := Pointwise_length (mapRes_pointwise hp)
  have lg := Pointwise_length (mapRes_pointwise hg)
  obtain ⟨m, ms, hb⟩ : ∃ m ms, baseMembers e = m :: ms := ⟨_, _, rfl⟩
  refine ⟨m, ms ++ pathMember pt ++ groupMember gt, paths, groups, ?_, ?_, hp2, hg2⟩
  · rw [← h'', ← baseMembers_text, hb, membersText_cons, membersText_cons, List.map_append, List.map_append,
      List.flatten_append, List.flatten_append]
    have e1 : ((pathMember pt).map fun m => b!"," ++ m.text).flatten = (if x.paths.length > 0 then
        b!", \"Paths\": [" ++ vectorJoin (pt.map fun p => b!"\"" ++ JsonEscape p ++ b!"\"") b!"," ++ b!"]" else []) := by
      rw [lp]
      cases pt with
      | nil => rfl
      | cons a as =>
        rw [if_pos (by simp)]
        simp only [pathMember, JMember.text, List.map_cons, List.map_nil, List.flatten_cons, List.flatten_nil,
          List.append_nil, List.append_assoc, List.cons_append, List.nil_append]
    have e2 : ((groupMember gt).map fun m => b!"," ++ m.text).flatten = (if x.properties.length > 0 then
        b!",\"properties\": [" ++ vectorJoin gt b!"," ++ b!"]" else []) := by
      rw [lg]
      cases gt with
      | nil => rfl
      | cons a as =>
        rw [if_pos (by simp)]
        simp only [groupMember, JMember.text, List.map_cons, List.map_nil, List.flatten_cons, List.flatten_nil,
          List.append_nil, List.append_assoc, List.cons_append, List.nil_append]
    rw [e1, e2]
    simp only [List.append_assoc]
  · have hbase := baseMembers_reads he
    rw [hb] at hbase
    have p1 : Pointwise JMember.Reads (pathMember pt) (listed b!"Paths" paths) := by
      have := Pointwise_length hp1
      rw [List.length_map] at this
      cases pt with
      | nil => cases paths with
        | nil => exact .nil
        | cons _ _ => cases this
      | cons a as => cases paths with
        | nil => cases this
        | cons v vs => exact .cons ⟨rfl, rfl, rfl, ⟨[], b!" ", rfl, rfl, rfl⟩, (arr_join hp1).reads⟩ .nil
    have p2 : Pointwise JMember.Reads (groupMember gt) (listed b!"properties" groups) := by
      have := Pointwise_length hg1
      cases gt with
      | nil => cases groups with
        | nil => exact .nil
        | cons _ _ => cases this
      | cons a as => cases groups with
        | nil => cases this
        | cons v vs => exact .cons ⟨rfl, rfl, rfl, ⟨[], b!" ", rfl, rfl, rfl⟩, (arr_join hg1).reads⟩ .nil
    have := Pointwise.append (Pointwise.append hbase p1) p2
    simpa using this

end Fileid.Report
