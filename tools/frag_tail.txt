omit [Field K] [Inhabited I] [Inhabited J] in
theorem inl_mem_sumD (s : Nat) (x : I) : Sum.inl x ∈ sumD D E s ↔ x ∈ D s := by simp [sumD]

omit [Field K] [Inhabited I] [Inhabited J] in
theorem inr_mem_sumD (s : Nat) (x : J) : Sum.inr x ∈ sumD D E s ↔ x ∈ E s := by simp [sumD]


/-! ## solutions of the two systems combine -/

omit [Inhabited I] [Inhabited J] in
theorem Splits2.zero_vo {F : (I ⊕ J) → (I ⊕ J) → K} {f : I → I → K}
    {g : J → J → K} (h : Splits2 F f g)
    (hf : ∀ a ∈ D 1, ∀ b ∈ D 0, f a b = 0)
    (hg : ∀ a ∈ E 1, ∀ b ∈ E 0, g a b = 0) :
    ∀ a ∈ sumD D E 1, ∀ b ∈ sumD D E 0, F a b = 0 := by
  intro a ha b hb
  have hm := h.mixed a b
  rcases a with a | a
  · rcases b with b | b
    swap
    · exact hm ⟨⟨a, by simp⟩, ⟨b, by simp⟩⟩
    rw [h.left]
    exact hf _ ((inl_mem_sumD D E _ _).1 ha) _ ((inl_mem_sumD D E _ _).1 hb)
  · rcases b with b | b
    · exact hm ⟨⟨b, by simp⟩, ⟨a, by simp⟩⟩
    rw [h.right]
    exact hg _ ((inr_mem_sumD D E _ _).1 ha) _ ((inr_mem_sumD D E _ _).1 hb)


omit [Inhabited I] [Inhabited J] in
theorem Splits2.zero_ov {F : (I ⊕ J) → (I ⊕ J) → K} {f : I → I → K}
    {g : J → J → K} (h : Splits2 F f g)
    (hf : ∀ a ∈ D 0, ∀ b ∈ D 1, f a b = 0)
    (hg : ∀ a ∈ E 0, ∀ b ∈ E 1, g a b = 0) :
    ∀ a ∈ sumD D E 0, ∀ b ∈ sumD D E 1, F a b = 0 := by
  intro a ha b hb
  have hm := h.mixed a b
  rcases a with a | a
  · rcases b with b | b
    swap
    · exact hm ⟨⟨a, by simp⟩, ⟨b, by simp⟩⟩
    rw [h.left]
    exact hf _ ((inl_mem_sumD D E _ _).1 ha) _ ((inl_mem_sumD D E _ _).1 hb)
  · rcases b with b | b
    · exact hm ⟨⟨b, by simp⟩, ⟨a, by simp⟩⟩
    rw [h.right]
    exact hg _ ((inr_mem_sumD D E _ _).1 ha) _ ((inr_mem_sumD D E _ _).1 hb)


omit [Inhabited I] [Inhabited J] in
theorem Splits.zero_vo {F : (I ⊕ J) → (I ⊕ J) → (I ⊕ J) → (I ⊕ J) → K} {f : I → I → I → I → K}
    {g : J → J → J → J → K} (h : Splits F f g)
    (hf : ∀ a ∈ D 1, ∀ b ∈ D 1, ∀ c ∈ D 0, ∀ d ∈ D 0, f a b c d = 0)
    (hg : ∀ a ∈ E 1, ∀ b ∈ E 1, ∀ c ∈ E 0, ∀ d ∈ E 0, g a b c d = 0) :
    ∀ a ∈ sumD D E 1, ∀ b ∈ sumD D E 1, ∀ c ∈ sumD D E 0, ∀ d ∈ sumD D E 0, F a b c d = 0 := by
  intro a ha b hb c hc d hd
  have hm := h.mixed a b c d
  rcases a with a | a
  · rcases b with b | b
    swap
    · exact hm ⟨⟨a, by simp⟩, ⟨b, by simp⟩⟩
    rcases c with c | c
    swap
    · exact hm ⟨⟨a, by simp⟩, ⟨c, by simp⟩⟩
    rcases d with d | d
    swap
    · exact hm ⟨⟨a, by simp⟩, ⟨d, by simp⟩⟩
    rw [h.left]
    exact hf _ ((inl_mem_sumD D E _ _).1 ha) _ ((inl_mem_sumD D E _ _).1 hb) _ ((inl_mem_sumD D E _ _).1 hc) _ ((inl_mem_sumD D E _ _).1 hd)
  · rcases b with b | b
    · exact hm ⟨⟨b, by simp⟩, ⟨a, by simp⟩⟩
    rcases c with c | c
    · exact hm ⟨⟨c, by simp⟩, ⟨a, by simp⟩⟩
    rcases d with d | d
    · exact hm ⟨⟨d, by simp⟩, ⟨a, by simp⟩⟩
    rw [h.right]
    exact hg _ ((inr_mem_sumD D E _ _).1 ha) _ ((inr_mem_sumD D E _ _).1 hb) _ ((inr_mem_sumD D E _ _).1 hc) _ ((inr_mem_sumD D E _ _).1 hd)


omit [Inhabited I] [Inhabited J] in
theorem Splits.zero_ov {F : (I ⊕ J) → (I ⊕ J) → (I ⊕ J) → (I ⊕ J) → K} {f : I → I → I → I → K}
    {g : J → J → J → J → K} (h : Splits F f g)
    (hf : ∀ a ∈ D 0, ∀ b ∈ D 0, ∀ c ∈ D 1, ∀ d ∈ D 1, f a b c d = 0)
    (hg : ∀ a ∈ E 0, ∀ b ∈ E 0, ∀ c ∈ E 1, ∀ d ∈ E 1, g a b c d = 0) :
    ∀ a ∈ sumD D E 0, ∀ b ∈ sumD D E 0, ∀ c ∈ sumD D E 1, ∀ d ∈ sumD D E 1, F a b c d = 0 := by
  intro a ha b hb c hc d hd
  have hm := h.mixed a b c d
  rcases a with a | a
  · rcases b with b | b
    swap
    · exact hm ⟨⟨a, by simp⟩, ⟨b, by simp⟩⟩
    rcases c with c | c
    swap
    · exact hm ⟨⟨a, by simp⟩, ⟨c, by simp⟩⟩
    rcases d with d | d
    swap
    · exact hm ⟨⟨a, by simp⟩, ⟨d, by simp⟩⟩
    rw [h.left]
    exact hf _ ((inl_mem_sumD D E _ _).1 ha) _ ((inl_mem_sumD D E _ _).1 hb) _ ((inl_mem_sumD D E _ _).1 hc) _ ((inl_mem_sumD D E _ _).1 hd)
  · rcases b with b | b
    · exact hm ⟨⟨b, by simp⟩, ⟨a, by simp⟩⟩
    rcases c with c | c
    · exact hm ⟨⟨c, by simp⟩, ⟨a, by simp⟩⟩
    rcases d with d | d
    · exact hm ⟨⟨d, by simp⟩, ⟨a, by simp⟩⟩
    rw [h.right]
    exact hg _ ((inr_mem_sumD D E _ _).1 ha) _ ((inr_mem_sumD D E _ _).1 hb) _ ((inr_mem_sumD D E _ _).1 hc) _ ((inr_mem_sumD D E _ _).1 hd)


omit [Inhabited I] [Inhabited J] in
theorem Splits6.zero_vo {F : (I ⊕ J) → (I ⊕ J) → (I ⊕ J) → (I ⊕ J) → (I ⊕ J) → (I ⊕ J) → K} {f : I → I → I → I → I → I → K}
    {g : J → J → J → J → J → J → K} (h : Splits6 F f g)
    (hf : ∀ a ∈ D 1, ∀ b ∈ D 1, ∀ c ∈ D 1, ∀ d ∈ D 0, ∀ i ∈ D 0, ∀ j ∈ D 0, f a b c d i j = 0)
    (hg : ∀ a ∈ E 1, ∀ b ∈ E 1, ∀ c ∈ E 1, ∀ d ∈ E 0, ∀ i ∈ E 0, ∀ j ∈ E 0, g a b c d i j = 0) :
    ∀ a ∈ sumD D E 1, ∀ b ∈ sumD D E 1, ∀ c ∈ sumD D E 1, ∀ d ∈ sumD D E 0, ∀ i ∈ sumD D E 0, ∀ j ∈ sumD D E 0, F a b c d i j = 0 := by
  intro a ha b hb c hc d hd i hi j hj
  have hm := h.mixed a b c d i j
  rcases a with a | a
  · rcases b with b | b
    swap
    · exact hm ⟨⟨a, by simp⟩, ⟨b, by simp⟩⟩
    rcases c with c | c
    swap
    · exact hm ⟨⟨a, by simp⟩, ⟨c, by simp⟩⟩
    rcases d with d | d
    swap
    · exact hm ⟨⟨a, by simp⟩, ⟨d, by simp⟩⟩
    rcases i with i | i
    swap
    · exact hm ⟨⟨a, by simp⟩, ⟨i, by simp⟩⟩
    rcases j with j | j
    swap
    · exact hm ⟨⟨a, by simp⟩, ⟨j, by simp⟩⟩
    rw [h.left]
    exact hf _ ((inl_mem_sumD D E _ _).1 ha) _ ((inl_mem_sumD D E _ _).1 hb) _ ((inl_mem_sumD D E _ _).1 hc) _ ((inl_mem_sumD D E _ _).1 hd) _ ((inl_mem_sumD D E _ _).1 hi) _ ((inl_mem_sumD D E _ _).1 hj)
  · rcases b with b | b
    · exact hm ⟨⟨b, by simp⟩, ⟨a, by simp⟩⟩
    rcases c with c | c
    · exact hm ⟨⟨c, by simp⟩, ⟨a, by simp⟩⟩
    rcases d with d | d
    · exact hm ⟨⟨d, by simp⟩, ⟨a, by simp⟩⟩
    rcases i with i | i
    · exact hm ⟨⟨i, by simp⟩, ⟨a, by simp⟩⟩
    rcases j with j | j
    · exact hm ⟨⟨j, by simp⟩, ⟨a, by simp⟩⟩
    rw [h.right]
    exact hg _ ((inr_mem_sumD D E _ _).1 ha) _ ((inr_mem_sumD D E _ _).1 hb) _ ((inr_mem_sumD D E _ _).1 hc) _ ((inr_mem_sumD D E _ _).1 hd) _ ((inr_mem_sumD D E _ _).1 hi) _ ((inr_mem_sumD D E _ _).1 hj)


omit [Inhabited I] [Inhabited J] in
theorem Splits6.zero_ov {F : (I ⊕ J) → (I ⊕ J) → (I ⊕ J) → (I ⊕ J) → (I ⊕ J) → (I ⊕ J) → K} {f : I → I → I → I → I → I → K}
    {g : J → J → J → J → J → J → K} (h : Splits6 F f g)
    (hf : ∀ a ∈ D 0, ∀ b ∈ D 0, ∀ c ∈ D 0, ∀ d ∈ D 1, ∀ i ∈ D 1, ∀ j ∈ D 1, f a b c d i j = 0)
    (hg : ∀ a ∈ E 0, ∀ b ∈ E 0, ∀ c ∈ E 0, ∀ d ∈ E 1, ∀ i ∈ E 1, ∀ j ∈ E 1, g a b c d i j = 0) :
    ∀ a ∈ sumD D E 0, ∀ b ∈ sumD D E 0, ∀ c ∈ sumD D E 0, ∀ d ∈ sumD D E 1, ∀ i ∈ sumD D E 1, ∀ j ∈ sumD D E 1, F a b c d i j = 0 := by
  intro a ha b hb c hc d hd i hi j hj
  have hm := h.mixed a b c d i j
  rcases a with a | a
  · rcases b with b | b
    swap
    · exact hm ⟨⟨a, by simp⟩, ⟨b, by simp⟩⟩
    rcases c with c | c
    swap
    · exact hm ⟨⟨a, by simp⟩, ⟨c, by simp⟩⟩
    rcases d with d | d
    swap
    · exact hm ⟨⟨a, by simp⟩, ⟨d, by simp⟩⟩
    rcases i with i | i
    swap
    · exact hm ⟨⟨a, by simp⟩, ⟨i, by simp⟩⟩
    rcases j with j | j
    swap
    · exact hm ⟨⟨a, by simp⟩, ⟨j, by simp⟩⟩
    rw [h.left]
    exact hf _ ((inl_mem_sumD D E _ _).1 ha) _ ((inl_mem_sumD D E _ _).1 hb) _ ((inl_mem_sumD D E _ _).1 hc) _ ((inl_mem_sumD D E _ _).1 hd) _ ((inl_mem_sumD D E _ _).1 hi) _ ((inl_mem_sumD D E _ _).1 hj)
  · rcases b with b | b
    · exact hm ⟨⟨b, by simp⟩, ⟨a, by simp⟩⟩
    rcases c with c | c
    · exact hm ⟨⟨c, by simp⟩, ⟨a, by simp⟩⟩
    rcases d with d | d
    · exact hm ⟨⟨d, by simp⟩, ⟨a, by simp⟩⟩
    rcases i with i | i
    · exact hm ⟨⟨i, by simp⟩, ⟨a, by simp⟩⟩
    rcases j with j | j
    · exact hm ⟨⟨j, by simp⟩, ⟨a, by simp⟩⟩
    rw [h.right]
    exact hg _ ((inr_mem_sumD D E _ _).1 ha) _ ((inr_mem_sumD D E _ _).1 hb) _ ((inr_mem_sumD D E _ _).1 hc) _ ((inr_mem_sumD D E _ _).1 hd) _ ((inr_mem_sumD D E _ _).1 hi) _ ((inr_mem_sumD D E _ _).1 hj)


omit [Inhabited I] [Inhabited J] in
theorem Splits8.zero_vo {F : (I ⊕ J) → (I ⊕ J) → (I ⊕ J) → (I ⊕ J) → (I ⊕ J) → (I ⊕ J) → (I ⊕ J) → (I ⊕ J) → K} {f : I → I → I → I → I → I → I → I → K}
    {g : J → J → J → J → J → J → J → J → K} (h : Splits8 F f g)
    (hf : ∀ a ∈ D 1, ∀ b ∈ D 1, ∀ c ∈ D 1, ∀ d ∈ D 1, ∀ i ∈ D 0, ∀ j ∈ D 0, ∀ k ∈ D 0, ∀ l ∈ D 0, f a b c d i j k l = 0)
    (hg : ∀ a ∈ E 1, ∀ b ∈ E 1, ∀ c ∈ E 1, ∀ d ∈ E 1, ∀ i ∈ E 0, ∀ j ∈ E 0, ∀ k ∈ E 0, ∀ l ∈ E 0, g a b c d i j k l = 0) :
    ∀ a ∈ sumD D E 1, ∀ b ∈ sumD D E 1, ∀ c ∈ sumD D E 1, ∀ d ∈ sumD D E 1, ∀ i ∈ sumD D E 0, ∀ j ∈ sumD D E 0, ∀ k ∈ sumD D E 0, ∀ l ∈ sumD D E 0, F a b c d i j k l = 0 := by
  intro a ha b hb c hc d hd i hi j hj k hk l hl
  have hm := h.mixed a b c d i j k l
  rcases a with a | a
  · rcases b with b | b
    swap
    · exact hm ⟨⟨a, by simp⟩, ⟨b, by simp⟩⟩
    rcases c with c | c
    swap
    · exact hm ⟨⟨a, by simp⟩, ⟨c, by simp⟩⟩
    rcases d with d | d
    swap
    · exact hm ⟨⟨a, by simp⟩, ⟨d, by simp⟩⟩
    rcases i with i | i
    swap
    · exact hm ⟨⟨a, by simp⟩, ⟨i, by simp⟩⟩
    rcases j with j | j
    swap
    · exact hm ⟨⟨a, by simp⟩, ⟨j, by simp⟩⟩
    rcases k with k | k
    swap
    · exact hm ⟨⟨a, by simp⟩, ⟨k, by simp⟩⟩
    rcases l with l | l
    swap
    · exact hm ⟨⟨a, by simp⟩, ⟨l, by simp⟩⟩
    rw [h.left]
    exact hf _ ((inl_mem_sumD D E _ _).1 ha) _ ((inl_mem_sumD D E _ _).1 hb) _ ((inl_mem_sumD D E _ _).1 hc) _ ((inl_mem_sumD D E _ _).1 hd) _ ((inl_mem_sumD D E _ _).1 hi) _ ((inl_mem_sumD D E _ _).1 hj) _ ((inl_mem_sumD D E _ _).1 hk) _ ((inl_mem_sumD D E _ _).1 hl)
  · rcases b with b | b
    · exact hm ⟨⟨b, by simp⟩, ⟨a, by simp⟩⟩
    rcases c with c | c
    · exact hm ⟨⟨c, by simp⟩, ⟨a, by simp⟩⟩
    rcases d with d | d
    · exact hm ⟨⟨d, by simp⟩, ⟨a, by simp⟩⟩
    rcases i with i | i
    · exact hm ⟨⟨i, by simp⟩, ⟨a, by simp⟩⟩
    rcases j with j | j
    · exact hm ⟨⟨j, by simp⟩, ⟨a, by simp⟩⟩
    rcases k with k | k
    · exact hm ⟨⟨k, by simp⟩, ⟨a, by simp⟩⟩
    rcases l with l | l
    · exact hm ⟨⟨l, by simp⟩, ⟨a, by simp⟩⟩
    rw [h.right]
    exact hg _ ((inr_mem_sumD D E _ _).1 ha) _ ((inr_mem_sumD D E _ _).1 hb) _ ((inr_mem_sumD D E _ _).1 hc) _ ((inr_mem_sumD D E _ _).1 hd) _ ((inr_mem_sumD D E _ _).1 hi) _ ((inr_mem_sumD D E _ _).1 hj) _ ((inr_mem_sumD D E _ _).1 hk) _ ((inr_mem_sumD D E _ _).1 hl)


omit [Inhabited I] [Inhabited J] in
theorem Splits8.zero_ov {F : (I ⊕ J) → (I ⊕ J) → (I ⊕ J) → (I ⊕ J) → (I ⊕ J) → (I ⊕ J) → (I ⊕ J) → (I ⊕ J) → K} {f : I → I → I → I → I → I → I → I → K}
    {g : J → J → J → J → J → J → J → J → K} (h : Splits8 F f g)
    (hf : ∀ a ∈ D 0, ∀ b ∈ D 0, ∀ c ∈ D 0, ∀ d ∈ D 0, ∀ i ∈ D 1, ∀ j ∈ D 1, ∀ k ∈ D 1, ∀ l ∈ D 1, f a b c d i j k l = 0)
    (hg : ∀ a ∈ E 0, ∀ b ∈ E 0, ∀ c ∈ E 0, ∀ d ∈ E 0, ∀ i ∈ E 1, ∀ j ∈ E 1, ∀ k ∈ E 1, ∀ l ∈ E 1, g a b c d i j k l = 0) :
    ∀ a ∈ sumD D E 0, ∀ b ∈ sumD D E 0, ∀ c ∈ sumD D E 0, ∀ d ∈ sumD D E 0, ∀ i ∈ sumD D E 1, ∀ j ∈ sumD D E 1, ∀ k ∈ sumD D E 1, ∀ l ∈ sumD D E 1, F a b c d i j k l = 0 := by
  intro a ha b hb c hc d hd i hi j hj k hk l hl
  have hm := h.mixed a b c d i j k l
  rcases a with a | a
  · rcases b with b | b
    swap
    · exact hm ⟨⟨a, by simp⟩, ⟨b, by simp⟩⟩
    rcases c with c | c
    swap
    · exact hm ⟨⟨a, by simp⟩, ⟨c, by simp⟩⟩
    rcases d with d | d
    swap
    · exact hm ⟨⟨a, by simp⟩, ⟨d, by simp⟩⟩
    rcases i with i | i
    swap
    · exact hm ⟨⟨a, by simp⟩, ⟨i, by simp⟩⟩
    rcases j with j | j
    swap
    · exact hm ⟨⟨a, by simp⟩, ⟨j, by simp⟩⟩
    rcases k with k | k
    swap
    · exact hm ⟨⟨a, by simp⟩, ⟨k, by simp⟩⟩
    rcases l with l | l
    swap
    · exact hm ⟨⟨a, by simp⟩, ⟨l, by simp⟩⟩
    rw [h.left]
    exact hf _ ((inl_mem_sumD D E _ _).1 ha) _ ((inl_mem_sumD D E _ _).1 hb) _ ((inl_mem_sumD D E _ _).1 hc) _ ((inl_mem_sumD D E _ _).1 hd) _ ((inl_mem_sumD D E _ _).1 hi) _ ((inl_mem_sumD D E _ _).1 hj) _ ((inl_mem_sumD D E _ _).1 hk) _ ((inl_mem_sumD D E _ _).1 hl)
  · rcases b with b | b
    · exact hm ⟨⟨b, by simp⟩, ⟨a, by simp⟩⟩
    rcases c with c | c
    · exact hm ⟨⟨c, by simp⟩, ⟨a, by simp⟩⟩
    rcases d with d | d
    · exact hm ⟨⟨d, by simp⟩, ⟨a, by simp⟩⟩
    rcases i with i | i
    · exact hm ⟨⟨i, by simp⟩, ⟨a, by simp⟩⟩
    rcases j with j | j
    · exact hm ⟨⟨j, by simp⟩, ⟨a, by simp⟩⟩
    rcases k with k | k
    · exact hm ⟨⟨k, by simp⟩, ⟨a, by simp⟩⟩
    rcases l with l | l
    · exact hm ⟨⟨l, by simp⟩, ⟨a, by simp⟩⟩
    rw [h.right]
    exact hg _ ((inr_mem_sumD D E _ _).1 ha) _ ((inr_mem_sumD D E _ _).1 hb) _ ((inr_mem_sumD D E _ _).1 hc) _ ((inr_mem_sumD D E _ _).1 hd) _ ((inr_mem_sumD D E _ _).1 hi) _ ((inr_mem_sumD D E _ _).1 hj) _ ((inr_mem_sumD D E _ _).1 hk) _ ((inr_mem_sumD D E _ _).1 hl)


/-- The amplitudes solve the CCSD equations of the code. -/
def Solves_ccsd {I : Type} [Inhabited I] (D : Nat → Finset I) (A : SO I K) : Prop :=
  (∀ a ∈ D 0, ∀ b ∈ D 1, ccsd_t1resid D A a b = 0) ∧
  (∀ a ∈ D 0, ∀ b ∈ D 0, ∀ c ∈ D 1, ∀ d ∈ D 1, ccsd_t2resid D A a b c d = 0)

/-- If both systems solve the CCSD equations, so do the combined amplitudes, and the energies add. -/
theorem C63_ccsd_solutions (A : SO I K) (B : SO J K) (hA : Solves_ccsd D A) (hB : Solves_ccsd E B) :
    Solves_ccsd (sumD D E) (A.sum B) ∧ spinorbitalCCSDE (sumD D E) (A.sum B) = spinorbitalCCSDE D A + spinorbitalCCSDE E B := by
  refine ⟨⟨?_, ?_⟩, (C63_ccsd D E A B).1⟩
  · exact Splits2.zero_ov D E (C63_ccsd D E A B).2.2.1 hA.1 hB.1
  · exact Splits.zero_ov D E (C63_ccsd D E A B).2.2.2 hA.2 hB.2

/-- The amplitudes solve the CCSDT equations of the code. -/
def Solves_ccsdt {I : Type} [Inhabited I] (D : Nat → Finset I) (A : SO I K) : Prop :=
  (∀ a ∈ D 0, ∀ b ∈ D 1, ccsdt_t1eqns D A a b = 0) ∧
  (∀ a ∈ D 0, ∀ b ∈ D 0, ∀ c ∈ D 1, ∀ d ∈ D 1, ccsdt_t2eqns D A a b c d = 0) ∧
  (∀ a ∈ D 0, ∀ b ∈ D 0, ∀ c ∈ D 0, ∀ d ∈ D 1, ∀ i ∈ D 1, ∀ j ∈ D 1, ccsdt_t3eqns D A a b c d i j = 0)

/-- If both systems solve the CCSDT equations, so do the combined amplitudes, and the energies add. -/
theorem C63_ccsdt_solutions (A : SO I K) (B : SO J K) (hA : Solves_ccsdt D A) (hB : Solves_ccsdt E B) :
    Solves_ccsdt (sumD D E) (A.sum B) ∧ spinorbitalCCSDE (sumD D E) (A.sum B) = spinorbitalCCSDE D A + spinorbitalCCSDE E B := by
  refine ⟨⟨?_, ?_, ?_⟩, (C63_ccsd D E A B).1⟩
  · exact Splits2.zero_ov D E (C63_ccsdt D E A B).1 hA.1 hB.1
  · exact Splits.zero_ov D E (C63_ccsdt D E A B).2.1 hA.2.1 hB.2.1
  · exact Splits6.zero_ov D E (C63_ccsdt D E A B).2.2 hA.2.2 hB.2.2

/-- The amplitudes solve the CCDQ equations of the code. -/
def Solves_ccdq {I : Type} [Inhabited I] (D : Nat → Finset I) (A : SO I K) : Prop :=
  (∀ a ∈ D 0, ∀ b ∈ D 0, ∀ c ∈ D 1, ∀ d ∈ D 1, ccdq_t2eqns D A a b c d = 0) ∧
  (∀ a ∈ D 0, ∀ b ∈ D 0, ∀ c ∈ D 0, ∀ d ∈ D 0, ∀ i ∈ D 1, ∀ j ∈ D 1, ∀ k ∈ D 1, ∀ l ∈ D 1, ccdq_t4eqns D A a b c d i j k l = 0)

/-- If both systems solve the CCDQ equations, so do the combined amplitudes, and the energies add. -/
theorem C63_ccdq_solutions (A : SO I K) (B : SO J K) (hA : Solves_ccdq D A) (hB : Solves_ccdq E B) :
    Solves_ccdq (sumD D E) (A.sum B) ∧ spinorbitalCCDE (sumD D E) (A.sum B) = spinorbitalCCDE D A + spinorbitalCCDE E B := by
  refine ⟨⟨?_, ?_⟩, (C63_ccsd D E A B).2.1⟩
  · exact Splits.zero_ov D E (C63_ccdq D E A B).1 hA.1 hB.1
  · exact Splits8.zero_ov D E (C63_ccdq D E A B).2 hA.2 hB.2

/-- The amplitudes solve the spin-integrated CCSDT equations of the code. -/
def Solves_spin_ccsdt {I : Type} [Inhabited I] (D : Nat → Finset I) (A : SI I K) : Prop :=
  (∀ a ∈ D 1, ∀ b ∈ D 0, ccsdt_t1_aa D A a b = 0) ∧
  (∀ a ∈ D 1, ∀ b ∈ D 0, ccsdt_t1_bb D A a b = 0) ∧
  (∀ a ∈ D 1, ∀ b ∈ D 1, ∀ c ∈ D 0, ∀ d ∈ D 0, ccsdt_t2_aaaa D A a b c d = 0) ∧
  (∀ a ∈ D 1, ∀ b ∈ D 1, ∀ c ∈ D 0, ∀ d ∈ D 0, ccsdt_t2_bbbb D A a b c d = 0) ∧
  (∀ a ∈ D 1, ∀ b ∈ D 1, ∀ c ∈ D 0, ∀ d ∈ D 0, ccsdt_t2_abab D A a b c d = 0) ∧
  (∀ a ∈ D 1, ∀ b ∈ D 1, ∀ c ∈ D 1, ∀ d ∈ D 0, ∀ i ∈ D 0, ∀ j ∈ D 0, ccsdt_t3_aaaaaa D A a b c d i j = 0) ∧
  (∀ a ∈ D 1, ∀ b ∈ D 1, ∀ c ∈ D 1, ∀ d ∈ D 0, ∀ i ∈ D 0, ∀ j ∈ D 0, ccsdt_t3_aabaab D A a b c d i j = 0) ∧
  (∀ a ∈ D 1, ∀ b ∈ D 1, ∀ c ∈ D 1, ∀ d ∈ D 0, ∀ i ∈ D 0, ∀ j ∈ D 0, ccsdt_t3_abbabb D A a b c d i j = 0) ∧
  (∀ a ∈ D 1, ∀ b ∈ D 1, ∀ c ∈ D 1, ∀ d ∈ D 0, ∀ i ∈ D 0, ∀ j ∈ D 0, ccsdt_t3_bbbbbb D A a b c d i j = 0)

/-- If both systems solve the spin-integrated CCSDT equations, so do the combined amplitudes, and the energies add. -/
theorem C63_spin_ccsdt_solutions (A : SI I K) (B : SI J K) (hA : Solves_spin_ccsdt D A) (hB : Solves_spin_ccsdt E B) :
    Solves_spin_ccsdt (sumD D E) (A.sum B) ∧ ccsd_energy_with_spin (sumD D E) (A.sum B) = ccsd_energy_with_spin D A + ccsd_energy_with_spin E B := by
  refine ⟨⟨?_, ?_, ?_, ?_, ?_, ?_, ?_, ?_, ?_⟩, (C63_spin_ccsdt D E A B).1⟩
  · exact Splits2.zero_vo D E (C63_spin_ccsdt D E A B).2.1 hA.1 hB.1
  · exact Splits2.zero_vo D E (C63_spin_ccsdt D E A B).2.2.1 hA.2.1 hB.2.1
  · exact Splits.zero_vo D E (C63_spin_ccsdt D E A B).2.2.2.1 hA.2.2.1 hB.2.2.1
  · exact Splits.zero_vo D E (C63_spin_ccsdt D E A B).2.2.2.2.1 hA.2.2.2.1 hB.2.2.2.1
  · exact Splits.zero_vo D E (C63_spin_ccsdt D E A B).2.2.2.2.2.1 hA.2.2.2.2.1 hB.2.2.2.2.1
  · exact Splits6.zero_vo D E (C63_spin_ccsdt D E A B).2.2.2.2.2.2.1 hA.2.2.2.2.2.1 hB.2.2.2.2.2.1
  · exact Splits6.zero_vo D E (C63_spin_ccsdt D E A B).2.2.2.2.2.2.2.1 hA.2.2.2.2.2.2.1 hB.2.2.2.2.2.2.1
  · exact Splits6.zero_vo D E (C63_spin_ccsdt D E A B).2.2.2.2.2.2.2.2.1 hA.2.2.2.2.2.2.2.1 hB.2.2.2.2.2.2.2.1
  · exact Splits6.zero_vo D E (C63_spin_ccsdt D E A B).2.2.2.2.2.2.2.2.2 hA.2.2.2.2.2.2.2.2 hB.2.2.2.2.2.2.2.2

/-- The amplitudes solve the spin-integrated CCDQ equations of the code. -/
def Solves_spin_ccdq {I : Type} [Inhabited I] (D : Nat → Finset I) (A : SI I K) : Prop :=
  (∀ a ∈ D 1, ∀ b ∈ D 1, ∀ c ∈ D 0, ∀ d ∈ D 0, ccdq_t2_aaaa D A a b c d = 0) ∧
  (∀ a ∈ D 1, ∀ b ∈ D 1, ∀ c ∈ D 0, ∀ d ∈ D 0, ccdq_t2_bbbb D A a b c d = 0) ∧
  (∀ a ∈ D 1, ∀ b ∈ D 1, ∀ c ∈ D 0, ∀ d ∈ D 0, ccdq_t2_abab D A a b c d = 0) ∧
  (∀ a ∈ D 1, ∀ b ∈ D 1, ∀ c ∈ D 1, ∀ d ∈ D 1, ∀ i ∈ D 0, ∀ j ∈ D 0, ∀ k ∈ D 0, ∀ l ∈ D 0, ccdq_t4_aaaaaaaa D A a b c d i j k l = 0) ∧
  (∀ a ∈ D 1, ∀ b ∈ D 1, ∀ c ∈ D 1, ∀ d ∈ D 1, ∀ i ∈ D 0, ∀ j ∈ D 0, ∀ k ∈ D 0, ∀ l ∈ D 0, ccdq_t4_aaabaaab D A a b c d i j k l = 0) ∧
  (∀ a ∈ D 1, ∀ b ∈ D 1, ∀ c ∈ D 1, ∀ d ∈ D 1, ∀ i ∈ D 0, ∀ j ∈ D 0, ∀ k ∈ D 0, ∀ l ∈ D 0, ccdq_t4_aabbaabb D A a b c d i j k l = 0) ∧
  (∀ a ∈ D 1, ∀ b ∈ D 1, ∀ c ∈ D 1, ∀ d ∈ D 1, ∀ i ∈ D 0, ∀ j ∈ D 0, ∀ k ∈ D 0, ∀ l ∈ D 0, ccdq_t4_abbbabbb D A a b c d i j k l = 0) ∧
  (∀ a ∈ D 1, ∀ b ∈ D 1, ∀ c ∈ D 1, ∀ d ∈ D 1, ∀ i ∈ D 0, ∀ j ∈ D 0, ∀ k ∈ D 0, ∀ l ∈ D 0, ccdq_t4_bbbbbbbb D A a b c d i j k l = 0)

/-- If both systems solve the spin-integrated CCDQ equations, so do the combined amplitudes, and the energies add. -/
theorem C63_spin_ccdq_solutions (A : SI I K) (B : SI J K) (hA : Solves_spin_ccdq D A) (hB : Solves_spin_ccdq E B) :
    Solves_spin_ccdq (sumD D E) (A.sum B) ∧ ccd_energy_with_spin (sumD D E) (A.sum B) = ccd_energy_with_spin D A + ccd_energy_with_spin E B := by
  refine ⟨⟨?_, ?_, ?_, ?_, ?_, ?_, ?_, ?_⟩, C40_energy_spin D E A B⟩
  · exact Splits.zero_vo D E (C63_spin_ccdq D E A B).1 hA.1 hB.1
  · exact Splits.zero_vo D E (C63_spin_ccdq D E A B).2.1 hA.2.1 hB.2.1
  · exact Splits.zero_vo D E (C63_spin_ccdq D E A B).2.2.1 hA.2.2.1 hB.2.2.1
  · exact Splits8.zero_vo D E (C63_spin_ccdq D E A B).2.2.2.1 hA.2.2.2.1 hB.2.2.2.1
  · exact Splits8.zero_vo D E (C63_spin_ccdq D E A B).2.2.2.2.1 hA.2.2.2.2.1 hB.2.2.2.2.1
  · exact Splits8.zero_vo D E (C63_spin_ccdq D E A B).2.2.2.2.2.1 hA.2.2.2.2.2.1 hB.2.2.2.2.2.1
  · exact Splits8.zero_vo D E (C63_spin_ccdq D E A B).2.2.2.2.2.2.1 hA.2.2.2.2.2.2.1 hB.2.2.2.2.2.2.1
  · exact Splits8.zero_vo D E (C63_spin_ccdq D E A B).2.2.2.2.2.2.2 hA.2.2.2.2.2.2.2 hB.2.2.2.2.2.2.2

/-! ### a case -/

/-- Entries of one system are those of its own calculation. -/
example : ccsd_t1resid (sumD Witness.D Witness.D33) (Witness.so.sum Witness.so) (.inl 0) (.inl 2) =
    ccsd_t1resid Witness.D Witness.so 0 2 :=
  ((C63_ccsd Witness.D Witness.D33 Witness.so Witness.so).2.2.1).left 0 2

example : ccsd_t1resid Witness.D Witness.so 0 2 ≠ 0 := by decide +kernel

/-- A system with one occupied and one virtual spin orbital that solves the CCSD equations, with correlation energy 4. -/
def solved : SO ℕ ℚ where
  f p q := if p = q then 3 * p else 2
  t1 _ _ := 2

def D11 : Nat → Finset ℕ
  | 0 => {0}
  | _ => {1}

theorem solved_solves : Solves_ccsd D11 solved ∧ spinorbitalCCSDE D11 solved = 4 := by
  unfold Solves_ccsd
  decide +kernel

example : Solves_ccsd (sumD D11 D11) (solved.sum solved) ∧ spinorbitalCCSDE (sumD D11 D11) (solved.sum solved) = 8 := by
  have h := C63_ccsd_solutions D11 D11 solved solved solved_solves.1 solved_solves.1
  rw [solved_solves.2] at h
  exact ⟨h.1, h.2.trans (by norm_num)⟩

end Verif.Props
