import Mathlib.Data.List.Basic
import Verif.MpiUtil.Spec
set_option autoImplicit false
set_option linter.unusedSimpArgs false
/-!
# C108: gathering strings
-/
namespace MpiUtil

/-- the message starts with the packed string, whatever follows -/
def Holds (m : Packing) (asserts : Bool) (s msg : List Byte) : Prop :=
  msg.length = m.sizeU + s.length * m.sizeC ∧
    ∀ pre post, (unpack m (pre ++ msg ++ post) pre.length).1 = s ∧
      (asserts = true → (unpack m (pre ++ msg ++ post) pre.length).2 = pre.length + msg.length)

theorem message_holds (m : Packing) (hm : Faithful m) (asserts : Bool)
    (he : asserts = true → Exact m) (s : List Byte) (hc : 0 < m.sizeC)
    (hs : m.sizeU + s.length * m.sizeC ≤ intMax) :
    ∃ msg, message m asserts s = some msg ∧ Holds m asserts s msg := by
  have hlen : s.length ≤ s.length * m.sizeC := Nat.le_mul_of_pos_right _ hc
  have hlt : s.length < 2 ^ 32 := by unfold intMax at hs; omega
  have hmod : s.length % uintRange = s.length := Nat.mod_eq_of_lt hlt
  have hU := hm.sizeU s.length hlt
  have hC := hm.sizeC s
  have exactness : asserts = true → (m.packU s.length).length = m.sizeU ∧
      (m.packC s).length = s.length * m.sizeC :=
    fun ha => ⟨(he ha).sizeU _ hlt, (he ha).sizeC _⟩
  generalize hn : m.sizeU + s.length * m.sizeC = n at *
  by_cases h0 : s.length > 0
  · refine ⟨m.packU s.length ++ m.packC s ++
      List.replicate (n - ((m.packU s.length).length + (m.packC s).length)) 0, ?_, ?_, ?_⟩
    · have w1 : writeAt (List.replicate n (0 : Byte)) 0 (m.packU s.length) =
          some (m.packU s.length ++ List.replicate (n - (m.packU s.length).length) 0,
            (m.packU s.length).length) := by
        unfold writeAt
        rw [if_pos (by simp; omega)]
        simp
      have w2 : writeAt (m.packU s.length ++ List.replicate (n - (m.packU s.length).length) 0)
          (m.packU s.length).length (m.packC s) =
          some (m.packU s.length ++ m.packC s ++
            List.replicate (n - ((m.packU s.length).length + (m.packC s).length)) 0,
            (m.packU s.length).length + (m.packC s).length) := by
        unfold writeAt
        rw [if_pos (by simp; omega)]
        simp [List.drop_append, Nat.sub_sub]
      unfold message packedSize toInt
      rw [hn, if_pos hs]
      unfold pack
      simp only [hmod, w1, if_pos h0, List.take_length, w2]
      rw [if_neg]
      simp only [Bool.and_eq_true, bne_iff_ne, ne_eq, not_and, not_not]
      intro ha
      have := exactness ha
      omega
    · simp; omega
    · intro pre post
      have u : unpack m (pre ++ (m.packU s.length ++ m.packC s ++
          List.replicate (n - ((m.packU s.length).length + (m.packC s).length)) 0) ++ post)
          pre.length = (s, pre.length + (m.packU s.length).length + (m.packC s).length) := by
        unfold unpack
        have d1 : List.drop pre.length (pre ++ (m.packU s.length ++ m.packC s ++
          List.replicate (n - ((m.packU s.length).length + (m.packC s).length)) 0) ++ post) =
            m.packU s.length ++ (m.packC s ++
              (List.replicate (n - ((m.packU s.length).length + (m.packC s).length)) 0 ++ post)) := by
          simp
        have d2 : List.drop (pre.length + (m.packU s.length).length)
            (pre ++ (m.packU s.length ++ m.packC s ++
          List.replicate (n - ((m.packU s.length).length + (m.packC s).length)) 0) ++ post) =
            m.packC s ++
              (List.replicate (n - ((m.packU s.length).length + (m.packC s).length)) 0 ++ post) := by
          rw [← List.drop_drop, d1]; simp
        rw [d1, hm.number _ _ hlt]
        simp only [if_pos h0]
        rw [d2, hm.chars]
      rw [u]
      refine ⟨rfl, fun ha => ?_⟩
      have := exactness ha
      simp; omega
  · have hs0 : s = [] := by
      cases s with
      | nil => rfl
      | cons a s => simp at h0
    subst hs0
    simp only [List.length_nil, Nat.zero_mul, Nat.add_zero] at *
    refine ⟨m.packU 0 ++ List.replicate (n - (m.packU 0).length) 0, ?_, ?_, ?_⟩
    · have w1 : writeAt (List.replicate n (0 : Byte)) 0 (m.packU 0) =
          some (m.packU 0 ++ List.replicate (n - (m.packU 0).length) 0, (m.packU 0).length) := by
        unfold writeAt
        rw [if_pos (by simp; omega)]
        simp
      unfold message packedSize toInt
      simp only [List.length_nil, Nat.zero_mul, Nat.add_zero]
      rw [hn, if_pos hs]
      unfold pack
      simp only [List.length_nil, Nat.zero_mod, w1, gt_iff_lt, Nat.lt_irrefl, if_false]
      rw [if_neg]
      simp only [Bool.and_eq_true, bne_iff_ne, ne_eq, not_and, not_not]
      intro ha
      have := exactness ha
      omega
    · simp; omega
    · intro pre post
      have u : unpack m (pre ++ (m.packU 0 ++ List.replicate (n - (m.packU 0).length) 0) ++ post)
          pre.length = ([], pre.length + (m.packU 0).length) := by
        unfold unpack
        have d1 : List.drop pre.length (pre ++ (m.packU 0 ++
            List.replicate (n - (m.packU 0).length) 0) ++ post) =
            m.packU 0 ++ (List.replicate (n - (m.packU 0).length) 0 ++ post) := by
          simp
        rw [d1, hm.number _ _ (by omega)]
        simp
      rw [u]
      refine ⟨rfl, fun ha => ?_⟩
      have := exactness ha
      simp; omega

/-- the packed size of all strings -/
def totalSize (m : Packing) (strings : List (List Byte)) : ℕ :=
  (strings.map fun s => m.sizeU + s.length * m.sizeC).sum

theorem messages_hold (m : Packing) (hm : Faithful m) (asserts : Bool)
    (he : asserts = true → Exact m) (hc : 0 < m.sizeC) (strings : List (List Byte))
    (hs : totalSize m strings ≤ intMax) :
    ∃ msgs, messages m asserts strings = some msgs ∧ List.Forall₂ (Holds m asserts) strings msgs := by
  induction strings with
  | nil => exact ⟨[], rfl, .nil⟩
  | cons s ss ih =>
    unfold totalSize at hs
    rw [List.map_cons, List.sum_cons] at hs
    obtain ⟨msg, h1, h2⟩ := message_holds m hm asserts he s hc (by omega)
    obtain ⟨msgs, h3, h4⟩ := ih (by unfold totalSize; omega)
    exact ⟨msg :: msgs, by simp [messages, h1, h3], .cons h2 h4⟩

theorem total_messages {m : Packing} {asserts : Bool} {strings msgs : List (List Byte)}
    (hh : List.Forall₂ (Holds m asserts) strings msgs) :
    (msgs.map List.length).sum = totalSize m strings := by
  induction hh with
  | nil => rfl
  | cons h _ ih =>
    unfold totalSize at *
    simp only [List.map_cons, List.sum_cons, ih, h.1]

/-- the displacements of the messages, as a plain list -/
def displ (acc : ℕ) : List ℕ → List ℕ
  | [] => [acc]
  | n :: ns => acc :: displ (acc + n) ns

theorem displacements_eq (ns : List ℕ) : ∀ acc, acc + ns.sum ≤ intMax →
    displacements acc ns = some (displ acc ns) := by
  induction ns with
  | nil => intro acc _; rfl
  | cons n ns ih =>
    intro acc h
    rw [List.sum_cons] at h
    have : acc + n ≤ intMax := by omega
    simp only [displacements, toInt, if_pos this]
    rw [ih (acc + n) (by omega)]
    rfl

theorem displ_last (ns : List ℕ) : ∀ acc d, (displ acc ns).getLastD d = acc + ns.sum := by
  induction ns with
  | nil => intro acc d; rfl
  | cons n ns ih =>
    intro acc d
    rw [displ]
    cases ns with
    | nil => simp [displ]
    | cons k ns =>
      have := ih (acc + n) d
      simp only [displ, List.getLastD_cons, List.sum_cons] at this ⊢
      rw [this]; omega

theorem receive_eq (msgs : List (List Byte)) : ∀ (pre : List Byte) (n : ℕ),
    (msgs.map List.length).sum = n →
    receive (pre ++ List.replicate n 0) ((displ pre.length (msgs.map List.length)).zip msgs) =
      some (pre ++ msgs.flatten) := by
  induction msgs with
  | nil => intro pre n h; simp at h; subst h; simp [receive, displ]
  | cons b bs ih =>
    intro pre n h
    simp only [List.map_cons, List.sum_cons] at h
    have w : writeAt (pre ++ List.replicate n 0) pre.length b =
        some ((pre ++ b) ++ List.replicate ((bs.map List.length).sum) 0, pre.length + b.length) := by
      unfold writeAt
      rw [if_pos (by simp; omega)]
      have : n - b.length = (bs.map List.length).sum := by omega
      simp [List.drop_append, this]
    simp only [List.map_cons, displ, List.zip_cons_cons, receive, w]
    have := ih (pre ++ b) _ rfl
    rw [List.length_append] at this
    rw [this]
    simp

theorem unpackAll_eq {m : Packing} {asserts : Bool} {strings msgs : List (List Byte)}
    (hh : List.Forall₂ (Holds m asserts) strings msgs) : ∀ (pre post : List Byte),
    unpackAll m asserts (pre ++ msgs.flatten ++ post)
      ((displ pre.length (msgs.map List.length)).zip
        (displ pre.length (msgs.map List.length)).tail) = some (nonEmpty strings) := by
  induction hh with
  | nil => intro pre post; rfl
  | @cons s b ss bs h _ ih =>
    intro pre post
    obtain ⟨h1, h2⟩ := h.2 pre (bs.flatten ++ post)
    have hb : pre ++ (b :: bs).flatten ++ post = pre ++ b ++ (bs.flatten ++ post) := by simp
    have ih' := ih (pre ++ b) post
    have hb' : pre ++ b ++ bs.flatten ++ post = pre ++ b ++ (bs.flatten ++ post) := by simp
    rw [hb', List.length_append] at ih'
    have hz : (displ pre.length ((b :: bs).map List.length)).zip
        (displ pre.length ((b :: bs).map List.length)).tail =
        (pre.length, pre.length + b.length) ::
          (displ (pre.length + b.length) (bs.map List.length)).zip
            (displ (pre.length + b.length) (bs.map List.length)).tail := by
      rw [List.map_cons, displ]
      cases bs with
      | nil => simp [displ]
      | cons c bs => simp [displ]
    rw [hz, hb]
    simp only [unpackAll]
    rw [if_neg, ih', h1]
    · cases s with
      | nil => simp [nonEmpty]
      | cons a s => simp [nonEmpty]
    · simp only [Bool.and_eq_true, bne_iff_ne, ne_eq, not_and, not_not]
      exact h2

/-- Proved part: if the packed strings of all processes together fit into an `int`,
every process gets the strings of all processes which are not empty, in the order of
the ranks.  With assertions enabled MPI must report exact sizes. -/
theorem C108_gather_partial (m : Packing) (hm : Faithful m) (hc : 0 < m.sizeC) (asserts : Bool)
    (he : asserts = true → Exact m) (strings : List (List Byte))
    (hs : (strings.map fun s => m.sizeU + s.length * m.sizeC).sum ≤ 2 ^ 31 - 1) :
    gatherStrings m asserts strings = some (strings.filter fun s => s ≠ []) := by
  obtain ⟨msgs, h1, h2⟩ := messages_hold m hm asserts he hc strings hs
  have ht := total_messages h2
  have hd := displacements_eq (msgs.map List.length) 0 (by
    rw [ht, Nat.zero_add]; exact hs)
  have hr := receive_eq msgs [] _ rfl
  have hu := unpackAll_eq h2 [] []
  simp only [List.nil_append, List.length_nil, List.append_nil] at hr hu
  unfold gatherStrings
  simp only [h1, hd, displ_last, Nat.zero_add, hr, hu]
  rfl

theorem message_length {m : Packing} {asserts : Bool} {s b : List Byte}
    (h : message m asserts s = some b) : b.length = m.sizeU + s.length * m.sizeC := by
  have wlen : ∀ (buf : List Byte) o bytes r, writeAt buf o bytes = some r →
      r.1.length = buf.length := by
    intro buf o bytes r hr
    unfold writeAt at hr
    split at hr
    · cases hr; simp; omega
    · cases hr
  unfold message at h
  cases hp : packedSize m s with
  | none => rw [hp] at h; simp at h
  | some size =>
    rw [hp] at h
    dsimp only at h
    have hsize : size = m.sizeU + s.length * m.sizeC := by
      unfold packedSize toInt at hp
      split at hp
      · cases hp; rfl
      · cases hp
    cases hq : pack m s (List.replicate size 0) 0 with
    | none => rw [hq] at h; simp at h
    | some q =>
      rw [hq] at h
      simp only at h
      split at h
      · cases h
      · cases h
        rw [← hsize]
        unfold pack at hq
        dsimp only at hq
        cases hw : writeAt (List.replicate size 0) 0 (m.packU (s.length % uintRange)) with
        | none => rw [hw] at hq; simp at hq
        | some w =>
          rw [hw] at hq
          have := wlen _ _ _ _ hw
          simp only at hq
          split at hq
          · rw [wlen _ _ _ _ hq, this]; simp
          · cases hq; simpa using this

theorem messages_length {m : Packing} {asserts : Bool} (strings : List (List Byte)) :
    ∀ msgs, messages m asserts strings = some msgs →
      msgs.map List.length = strings.map fun s => m.sizeU + s.length * m.sizeC := by
  induction strings with
  | nil => intro msgs h; simp [messages] at h; subst h; rfl
  | cons s ss ih =>
    intro msgs h
    unfold messages at h
    split at h
    · rename_i b bs hb hbs
      cases h
      simp only [List.map_cons, message_length hb, ih bs hbs]
    · cases h

theorem displacements_overflow (ns : List ℕ) : ∀ acc, intMax < acc + ns.sum → acc ≤ intMax →
    displacements acc ns = none := by
  induction ns with
  | nil => intro acc h h'; simp at h; omega
  | cons n ns ih =>
    intro acc h h'
    rw [List.sum_cons] at h
    by_cases hn : acc + n ≤ intMax
    · simp only [displacements, toInt, if_pos hn]
      rw [ih (acc + n) (by omega) hn]
    · simp only [displacements, toInt, if_neg hn]

/-- the gathering fails if the packed strings do not fit into an `int` -/
theorem gather_overflow (m : Packing) (asserts : Bool) (strings : List (List Byte))
    (hs : intMax < (strings.map fun s => m.sizeU + s.length * m.sizeC).sum) :
    gatherStrings m asserts strings = none := by
  unfold gatherStrings
  cases hm : messages m asserts strings with
  | none => simp only
  | some msgs =>
    have hd : displacements 0 (msgs.map List.length) = none := by
      rw [messages_length _ _ hm]
      apply displacements_overflow
      · omega
      · exact Nat.zero_le _
    simp only [hd]

/-- The full property has no limit on the strings.  It is false: the sizes and the
displacements are kept as `int`, so the gathering fails for long strings although
every message fits into memory. -/
theorem C108_gather_violated :
    ∃ strings : List (List Byte), (∀ s ∈ strings, s.length = 2 ^ 30) ∧ strings.length = 2 ∧
      ∀ asserts, gatherStrings littleEndian asserts strings = none := by
  obtain ⟨s, hs⟩ : ∃ s : List Byte, s.length = 2 ^ 30 :=
    ⟨List.replicate (2 ^ 30) 65, List.length_replicate⟩
  refine ⟨[s, s], ?_, rfl, fun asserts => gather_overflow _ _ _ ?_⟩
  · intro t ht
    simp only [List.mem_cons, List.not_mem_nil, or_false, or_self] at ht
    rw [ht, hs]
  · simp only [List.map_cons, List.map_nil, hs, littleEndian, List.sum_cons, List.sum_nil, intMax]
    decide

/-- A build without MPI agrees with one process of a build with MPI. -/
theorem C108_serial (m : Packing) (hm : Faithful m) (hc : 0 < m.sizeC) (asserts : Bool)
    (he : asserts = true → Exact m) (s : List Byte)
    (hs : m.sizeU + s.length * m.sizeC ≤ 2 ^ 31 - 1) :
    gatherStrings m asserts [s] = some (gatherStringsSerial s) := by
  rw [C108_gather_partial m hm hc asserts he [s] (by simpa using hs)]
  cases s <;> simp [gatherStringsSerial]

theorem littleEndian_faithful : Faithful littleEndian ∧ Exact littleEndian := by
  refine ⟨⟨?_, ?_, ?_, ?_⟩, ?_, ?_⟩
  · intro n rest h
    simp only [littleEndian, List.cons_append, List.nil_append, List.getD_cons_zero,
      List.getD_cons_succ, UInt8.toNat_ofNat', Prod.mk.injEq, List.length_cons, List.length_nil]
    refine ⟨?_, trivial⟩
    omega
  · intro s rest; simp [littleEndian]
  · intro n _; simp [littleEndian]
  · intro s; simp [littleEndian]
  · intro n _; simp [littleEndian]
  · intro s; simp [littleEndian]

/-- Non-vacuity: three processes, one of them with an empty string. -/
example : Faithful littleEndian ∧ Exact littleEndian ∧
    gatherStrings littleEndian true [[72, 105], [], [33]] = some [[72, 105], [33]] := by
  refine ⟨littleEndian_faithful.1, littleEndian_faithful.2, ?_⟩
  rw [C108_gather_partial littleEndian littleEndian_faithful.1 (by decide) true
    (fun _ => littleEndian_faithful.2) _ (by decide)]
  decide

end MpiUtil
