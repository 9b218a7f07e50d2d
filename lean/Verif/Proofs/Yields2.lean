import Verif.Proofs.YieldBase
/-
GENERATED by tools/gen_yields.py.
Building the node of each grammar rule from the trees of its right-hand side.
-/
set_option linter.all false
namespace Pycep
theorem y_2 {n : Nat} {u0 : Tok} {u1 : Tok} {u2 : Tok} (k0 : u0.type = T.«TARGETSCOPE») (k1 : u1.type = T.«EQUAL») (k2 : u2.type = T.«QUOTED_INTERPOLATION») {l : Lines} (hl : LinesOf l (u0 :: (u1 :: [u2]))) :
    Y N.«element» (ndl "scope" [tk T.«QUOTED_INTERPOLATION» u2.text] l) (u0 :: (u1 :: [u2])) n :=
  Y.nodeL ⟨N.«element», [T.«TARGETSCOPE», T.«EQUAL», T.«QUOTED_INTERPOLATION»], "scope", false, [(2, false, 0)], 0⟩ (by decide +kernel) rfl (by decide) (free_plain (by decide) (by decide)) hl (cs := [tk T.«TARGETSCOPE» u0.text, tk T.«EQUAL» u1.text, tk T.«QUOTED_INTERPOLATION» u2.text]) (by have : YL [T.«TARGETSCOPE», T.«EQUAL», T.«QUOTED_INTERPOLATION»] [tk T.«TARGETSCOPE» u0.text, tk T.«EQUAL» u1.text, tk T.«QUOTED_INTERPOLATION» u2.text] (u0 :: (u1 :: (u2 :: ([])))) n := (.tok k0 (by decide) (.tok k1 (by decide) (.tok k2 (by decide) .nil))); simpa only [List.append_assoc, List.nil_append, List.append_nil, List.cons_append, nextT_append, nextT_cons, nextT_nil] using this) (by simp only [keepKids', List.flatMap_cons, List.flatMap_nil, List.replicate_zero, List.replicate_succ, List.getElem?_cons_zero, List.getElem?_cons_succ, Bool.false_eq_true, if_true, if_false, List.append_nil, List.nil_append, List.cons_append, List.append_assoc, kidsOf_nd] <;> rfl)

theorem y_5 {n : Nat} {u0 : Tok} {u1 : Tok} {u2 : Tok} {c3 : Tree} {w3 : List Tok} (k0 : u0.type = T.«EXTENSION») (k1 : u1.type = T.«STRING») (k2 : u2.type = T.«WITH») (h3 : Y N.«object» c3 w3 n) {l : Lines} (hl : LinesOf l (u0 :: (u1 :: (u2 :: w3)))) :
    Y N.«element» (ndl "extension" (tk T.«STRING» u1.text :: (c3 :: [Tree.none])) l) (u0 :: (u1 :: (u2 :: w3))) n :=
  Y.nodeL ⟨N.«element», [T.«EXTENSION», T.«STRING», T.«WITH», N.«object»], "extension", false, [(1, false, 0), (3, false, 0)], 1⟩ (by decide +kernel) rfl (by decide) (free_plain (by decide) (by decide)) hl (cs := [tk T.«EXTENSION» u0.text, tk T.«STRING» u1.text, tk T.«WITH» u2.text, c3]) (by have : YL [T.«EXTENSION», T.«STRING», T.«WITH», N.«object»] [tk T.«EXTENSION» u0.text, tk T.«STRING» u1.text, tk T.«WITH» u2.text, c3] (u0 :: (u1 :: (u2 :: (w3 ++ ([]))))) n := (.tok k0 (by decide) (.tok k1 (by decide) (.tok k2 (by decide) (.nt (by simpa only [List.append_assoc, List.nil_append, List.append_nil, List.cons_append, nextT_append, nextT_cons, nextT_nil] using h3) .nil (fun h h' => by first | exact absurd h (by decide) | exact absurd h' (by decide)))))); simpa only [List.append_assoc, List.nil_append, List.append_nil, List.cons_append, nextT_append, nextT_cons, nextT_nil] using this) (by simp only [keepKids', List.flatMap_cons, List.flatMap_nil, List.replicate_zero, List.replicate_succ, List.getElem?_cons_zero, List.getElem?_cons_succ, Bool.false_eq_true, if_true, if_false, List.append_nil, List.nil_append, List.cons_append, List.append_assoc, kidsOf_nd] <;> rfl)

theorem y_8 {n : Nat} {u0 : Tok} {u1 : Tok} {u2 : Tok} {c3 : Tree} {w3 : List Tok} (k0 : u0.type = T.«METADATA») (k1 : u1.type = T.«STRING») (k2 : u2.type = T.«EQUAL») (h3 : Y N.«metadata_value» c3 w3 n) {l : Lines} (hl : LinesOf l (u0 :: (u1 :: (u2 :: w3)))) :
    Y N.«element» (ndl "metadata" (tk T.«STRING» u1.text :: [c3]) l) (u0 :: (u1 :: (u2 :: w3))) n :=
  Y.nodeL ⟨N.«element», [T.«METADATA», T.«STRING», T.«EQUAL», N.«metadata_value»], "metadata", false, [(1, false, 0), (3, false, 0)], 0⟩ (by decide +kernel) rfl (by decide) (free_plain (by decide) (by decide)) hl (cs := [tk T.«METADATA» u0.text, tk T.«STRING» u1.text, tk T.«EQUAL» u2.text, c3]) (by have : YL [T.«METADATA», T.«STRING», T.«EQUAL», N.«metadata_value»] [tk T.«METADATA» u0.text, tk T.«STRING» u1.text, tk T.«EQUAL» u2.text, c3] (u0 :: (u1 :: (u2 :: (w3 ++ ([]))))) n := (.tok k0 (by decide) (.tok k1 (by decide) (.tok k2 (by decide) (.nt (by simpa only [List.append_assoc, List.nil_append, List.append_nil, List.cons_append, nextT_append, nextT_cons, nextT_nil] using h3) .nil (fun h h' => by first | exact absurd h (by decide) | exact absurd h' (by decide)))))); simpa only [List.append_assoc, List.nil_append, List.append_nil, List.cons_append, nextT_append, nextT_cons, nextT_nil] using this) (by simp only [keepKids', List.flatMap_cons, List.flatMap_nil, List.replicate_zero, List.replicate_succ, List.getElem?_cons_zero, List.getElem?_cons_succ, Bool.false_eq_true, if_true, if_false, List.append_nil, List.nil_append, List.cons_append, List.append_assoc, kidsOf_nd] <;> rfl)

theorem y_11 {n : Nat} {c0 : Tree} {w0 : List Tok} {u1 : Tok} {u2 : Tok} {c3 : Tree} {w3 : List Tok} {u4 : Tok} {c5 : Tree} {w5 : List Tok} (h0 : Y N.«decorators» c0 w0 u1.type) (k1 : u1.type = T.«PARAM») (k2 : u2.type = T.«STRING») (h3 : Y N.«data_type» c3 w3 u4.type) (k4 : u4.type = T.«EQUAL») (h5 : Y N.«value_brackets» c5 w5 n) (hn : NoInfix n) {l : Lines} (hl : LinesOf l (w0 ++ (u1 :: (u2 :: (w3 ++ (u4 :: w5)))))) :
    Y N.«element» (ndl "param" (c0 :: (tk T.«STRING» u2.text :: (c3 :: [c5]))) l) (w0 ++ (u1 :: (u2 :: (w3 ++ (u4 :: w5))))) n :=
  Y.nodeL ⟨N.«element», [N.«decorators», T.«PARAM», T.«STRING», N.«data_type», T.«EQUAL», N.«value_brackets»], "param", false, [(0, false, 0), (2, false, 0), (3, false, 0), (5, false, 0)], 0⟩ (by decide +kernel) rfl (by decide) (free_infix (by decide) hn) hl (cs := [c0, tk T.«PARAM» u1.text, tk T.«STRING» u2.text, c3, tk T.«EQUAL» u4.text, c5]) (by have : YL [N.«decorators», T.«PARAM», T.«STRING», N.«data_type», T.«EQUAL», N.«value_brackets»] [c0, tk T.«PARAM» u1.text, tk T.«STRING» u2.text, c3, tk T.«EQUAL» u4.text, c5] (w0 ++ (u1 :: (u2 :: (w3 ++ (u4 :: (w5 ++ ([]))))))) n := (.nt (by simpa only [List.append_assoc, List.nil_append, List.append_nil, List.cons_append, nextT_append, nextT_cons, nextT_nil] using h0) (.tok k1 (by decide) (.tok k2 (by decide) (.nt (by simpa only [List.append_assoc, List.nil_append, List.append_nil, List.cons_append, nextT_append, nextT_cons, nextT_nil] using h3) (.tok k4 (by decide) (.nt (by simpa only [List.append_assoc, List.nil_append, List.append_nil, List.cons_append, nextT_append, nextT_cons, nextT_nil] using h5) .nil (fun h h' => by first | exact absurd h (by decide) | exact absurd h' (by decide)))) (fun h h' => by first | exact absurd h (by decide) | exact absurd h' (by decide))))) (fun h h' => by first | exact absurd h (by decide) | exact absurd h' (by decide))); simpa only [List.append_assoc, List.nil_append, List.append_nil, List.cons_append, nextT_append, nextT_cons, nextT_nil] using this) (by simp only [keepKids', List.flatMap_cons, List.flatMap_nil, List.replicate_zero, List.replicate_succ, List.getElem?_cons_zero, List.getElem?_cons_succ, Bool.false_eq_true, if_true, if_false, List.append_nil, List.nil_append, List.cons_append, List.append_assoc, kidsOf_nd] <;> rfl)

theorem y_14 {n : Nat} {u0 : Tok} {u1 : Tok} {c2 : Tree} {w2 : List Tok} {u3 : Tok} (k0 : u0.type = T.«PARAM») (k1 : u1.type = T.«STRING») (h2 : Y N.«data_type» c2 w2 u3.type) (k3 : u3.type = T.«QMARK») {l : Lines} (hl : LinesOf l (u0 :: (u1 :: (w2 ++ [u3])))) :
    Y N.«element» (ndl "param" (Tree.none :: (tk T.«STRING» u1.text :: (c2 :: [Tree.none]))) l) (u0 :: (u1 :: (w2 ++ [u3]))) n :=
  Y.nodeL ⟨N.«element», [T.«PARAM», T.«STRING», N.«data_type», T.«QMARK»], "param", false, [(1, false, 1), (2, false, 0)], 1⟩ (by decide +kernel) rfl (by decide) (free_plain (by decide) (by decide)) hl (cs := [tk T.«PARAM» u0.text, tk T.«STRING» u1.text, c2, tk T.«QMARK» u3.text]) (by have : YL [T.«PARAM», T.«STRING», N.«data_type», T.«QMARK»] [tk T.«PARAM» u0.text, tk T.«STRING» u1.text, c2, tk T.«QMARK» u3.text] (u0 :: (u1 :: (w2 ++ (u3 :: ([]))))) n := (.tok k0 (by decide) (.tok k1 (by decide) (.nt (by simpa only [List.append_assoc, List.nil_append, List.append_nil, List.cons_append, nextT_append, nextT_cons, nextT_nil] using h2) (.tok k3 (by decide) .nil) (fun h h' => by first | exact absurd h (by decide) | exact absurd h' (by decide))))); simpa only [List.append_assoc, List.nil_append, List.append_nil, List.cons_append, nextT_append, nextT_cons, nextT_nil] using this) (by simp only [keepKids', List.flatMap_cons, List.flatMap_nil, List.replicate_zero, List.replicate_succ, List.getElem?_cons_zero, List.getElem?_cons_succ, Bool.false_eq_true, if_true, if_false, List.append_nil, List.nil_append, List.cons_append, List.append_assoc, kidsOf_nd] <;> rfl)

theorem y_17 {n : Nat} {c0 : Tree} {w0 : List Tok} {u1 : Tok} {u2 : Tok} {c3 : Tree} {w3 : List Tok} {u4 : Tok} {u5 : Tok} {c6 : Tree} {w6 : List Tok} (h0 : Y N.«decorators» c0 w0 u1.type) (k1 : u1.type = T.«VAR») (k2 : u2.type = T.«STRING») (h3 : Y N.«data_type» c3 w3 u4.type) (k4 : u4.type = T.«QMARK») (k5 : u5.type = T.«EQUAL») (h6 : Y N.«var_value» c6 w6 n) {l : Lines} (hl : LinesOf l (w0 ++ (u1 :: (u2 :: (w3 ++ (u4 :: (u5 :: w6))))))) :
    Y N.«element» (ndl "var" (c0 :: (tk T.«STRING» u2.text :: (c3 :: [c6]))) l) (w0 ++ (u1 :: (u2 :: (w3 ++ (u4 :: (u5 :: w6)))))) n :=
  Y.nodeL ⟨N.«element», [N.«decorators», T.«VAR», T.«STRING», N.«data_type», T.«QMARK», T.«EQUAL», N.«var_value»], "var", false, [(0, false, 0), (2, false, 0), (3, false, 0), (6, false, 0)], 0⟩ (by decide +kernel) rfl (by decide) (free_plain (by decide) (by decide)) hl (cs := [c0, tk T.«VAR» u1.text, tk T.«STRING» u2.text, c3, tk T.«QMARK» u4.text, tk T.«EQUAL» u5.text, c6]) (by have : YL [N.«decorators», T.«VAR», T.«STRING», N.«data_type», T.«QMARK», T.«EQUAL», N.«var_value»] [c0, tk T.«VAR» u1.text, tk T.«STRING» u2.text, c3, tk T.«QMARK» u4.text, tk T.«EQUAL» u5.text, c6] (w0 ++ (u1 :: (u2 :: (w3 ++ (u4 :: (u5 :: (w6 ++ ([])))))))) n := (.nt (by simpa only [List.append_assoc, List.nil_append, List.append_nil, List.cons_append, nextT_append, nextT_cons, nextT_nil] using h0) (.tok k1 (by decide) (.tok k2 (by decide) (.nt (by simpa only [List.append_assoc, List.nil_append, List.append_nil, List.cons_append, nextT_append, nextT_cons, nextT_nil] using h3) (.tok k4 (by decide) (.tok k5 (by decide) (.nt (by simpa only [List.append_assoc, List.nil_append, List.append_nil, List.cons_append, nextT_append, nextT_cons, nextT_nil] using h6) .nil (fun h h' => by first | exact absurd h (by decide) | exact absurd h' (by decide))))) (fun h h' => by first | exact absurd h (by decide) | exact absurd h' (by decide))))) (fun h h' => by first | exact absurd h (by decide) | exact absurd h' (by decide))); simpa only [List.append_assoc, List.nil_append, List.append_nil, List.cons_append, nextT_append, nextT_cons, nextT_nil] using this) (by simp only [keepKids', List.flatMap_cons, List.flatMap_nil, List.replicate_zero, List.replicate_succ, List.getElem?_cons_zero, List.getElem?_cons_succ, Bool.false_eq_true, if_true, if_false, List.append_nil, List.nil_append, List.cons_append, List.append_assoc, kidsOf_nd] <;> rfl)

theorem y_20 {n : Nat} {u0 : Tok} {u1 : Tok} {c2 : Tree} {w2 : List Tok} {u3 : Tok} {u4 : Tok} {c5 : Tree} {w5 : List Tok} (k0 : u0.type = T.«VAR») (k1 : u1.type = T.«STRING») (h2 : Y N.«data_type» c2 w2 u3.type) (k3 : u3.type = T.«QMARK») (k4 : u4.type = T.«EQUAL») (h5 : Y N.«var_value» c5 w5 n) {l : Lines} (hl : LinesOf l (u0 :: (u1 :: (w2 ++ (u3 :: (u4 :: w5)))))) :
    Y N.«element» (ndl "var" (Tree.none :: (tk T.«STRING» u1.text :: (c2 :: [c5]))) l) (u0 :: (u1 :: (w2 ++ (u3 :: (u4 :: w5))))) n :=
  Y.nodeL ⟨N.«element», [T.«VAR», T.«STRING», N.«data_type», T.«QMARK», T.«EQUAL», N.«var_value»], "var", false, [(1, false, 1), (2, false, 0), (5, false, 0)], 0⟩ (by decide +kernel) rfl (by decide) (free_plain (by decide) (by decide)) hl (cs := [tk T.«VAR» u0.text, tk T.«STRING» u1.text, c2, tk T.«QMARK» u3.text, tk T.«EQUAL» u4.text, c5]) (by have : YL [T.«VAR», T.«STRING», N.«data_type», T.«QMARK», T.«EQUAL», N.«var_value»] [tk T.«VAR» u0.text, tk T.«STRING» u1.text, c2, tk T.«QMARK» u3.text, tk T.«EQUAL» u4.text, c5] (u0 :: (u1 :: (w2 ++ (u3 :: (u4 :: (w5 ++ ([]))))))) n := (.tok k0 (by decide) (.tok k1 (by decide) (.nt (by simpa only [List.append_assoc, List.nil_append, List.append_nil, List.cons_append, nextT_append, nextT_cons, nextT_nil] using h2) (.tok k3 (by decide) (.tok k4 (by decide) (.nt (by simpa only [List.append_assoc, List.nil_append, List.append_nil, List.cons_append, nextT_append, nextT_cons, nextT_nil] using h5) .nil (fun h h' => by first | exact absurd h (by decide) | exact absurd h' (by decide))))) (fun h h' => by first | exact absurd h (by decide) | exact absurd h' (by decide))))); simpa only [List.append_assoc, List.nil_append, List.append_nil, List.cons_append, nextT_append, nextT_cons, nextT_nil] using this) (by simp only [keepKids', List.flatMap_cons, List.flatMap_nil, List.replicate_zero, List.replicate_succ, List.getElem?_cons_zero, List.getElem?_cons_succ, Bool.false_eq_true, if_true, if_false, List.append_nil, List.nil_append, List.cons_append, List.append_assoc, kidsOf_nd] <;> rfl)

theorem y_23 {n : Nat} {c0 : Tree} {w0 : List Tok} {u1 : Tok} {u2 : Tok} {c3 : Tree} {w3 : List Tok} {u4 : Tok} {u5 : Tok} {c6 : Tree} {w6 : List Tok} (h0 : Y N.«decorators» c0 w0 u1.type) (k1 : u1.type = T.«OUTPUT») (k2 : u2.type = T.«STRING») (h3 : Y N.«data_type» c3 w3 u4.type) (k4 : u4.type = T.«QMARK») (k5 : u5.type = T.«EQUAL») (h6 : Y N.«output_value» c6 w6 n) {l : Lines} (hl : LinesOf l (w0 ++ (u1 :: (u2 :: (w3 ++ (u4 :: (u5 :: w6))))))) :
    Y N.«element» (ndl "output" (c0 :: (tk T.«STRING» u2.text :: (c3 :: [c6]))) l) (w0 ++ (u1 :: (u2 :: (w3 ++ (u4 :: (u5 :: w6)))))) n :=
  Y.nodeL ⟨N.«element», [N.«decorators», T.«OUTPUT», T.«STRING», N.«data_type», T.«QMARK», T.«EQUAL», N.«output_value»], "output", false, [(0, false, 0), (2, false, 0), (3, false, 0), (6, false, 0)], 0⟩ (by decide +kernel) rfl (by decide) (free_plain (by decide) (by decide)) hl (cs := [c0, tk T.«OUTPUT» u1.text, tk T.«STRING» u2.text, c3, tk T.«QMARK» u4.text, tk T.«EQUAL» u5.text, c6]) (by have : YL [N.«decorators», T.«OUTPUT», T.«STRING», N.«data_type», T.«QMARK», T.«EQUAL», N.«output_value»] [c0, tk T.«OUTPUT» u1.text, tk T.«STRING» u2.text, c3, tk T.«QMARK» u4.text, tk T.«EQUAL» u5.text, c6] (w0 ++ (u1 :: (u2 :: (w3 ++ (u4 :: (u5 :: (w6 ++ ([])))))))) n := (.nt (by simpa only [List.append_assoc, List.nil_append, List.append_nil, List.cons_append, nextT_append, nextT_cons, nextT_nil] using h0) (.tok k1 (by decide) (.tok k2 (by decide) (.nt (by simpa only [List.append_assoc, List.nil_append, List.append_nil, List.cons_append, nextT_append, nextT_cons, nextT_nil] using h3) (.tok k4 (by decide) (.tok k5 (by decide) (.nt (by simpa only [List.append_assoc, List.nil_append, List.append_nil, List.cons_append, nextT_append, nextT_cons, nextT_nil] using h6) .nil (fun h h' => by first | exact absurd h (by decide) | exact absurd h' (by decide))))) (fun h h' => by first | exact absurd h (by decide) | exact absurd h' (by decide))))) (fun h h' => by first | exact absurd h (by decide) | exact absurd h' (by decide))); simpa only [List.append_assoc, List.nil_append, List.append_nil, List.cons_append, nextT_append, nextT_cons, nextT_nil] using this) (by simp only [keepKids', List.flatMap_cons, List.flatMap_nil, List.replicate_zero, List.replicate_succ, List.getElem?_cons_zero, List.getElem?_cons_succ, Bool.false_eq_true, if_true, if_false, List.append_nil, List.nil_append, List.cons_append, List.append_assoc, kidsOf_nd] <;> rfl)

theorem y_26 {n : Nat} {u0 : Tok} {u1 : Tok} {c2 : Tree} {w2 : List Tok} {u3 : Tok} {c4 : Tree} {w4 : List Tok} (k0 : u0.type = T.«OUTPUT») (k1 : u1.type = T.«STRING») (h2 : Y N.«data_type» c2 w2 u3.type) (k3 : u3.type = T.«EQUAL») (h4 : Y N.«output_value» c4 w4 n) {l : Lines} (hl : LinesOf l (u0 :: (u1 :: (w2 ++ (u3 :: w4))))) :
    Y N.«element» (ndl "output" (Tree.none :: (tk T.«STRING» u1.text :: (c2 :: [c4]))) l) (u0 :: (u1 :: (w2 ++ (u3 :: w4)))) n :=
  Y.nodeL ⟨N.«element», [T.«OUTPUT», T.«STRING», N.«data_type», T.«EQUAL», N.«output_value»], "output", false, [(1, false, 1), (2, false, 0), (4, false, 0)], 0⟩ (by decide +kernel) rfl (by decide) (free_plain (by decide) (by decide)) hl (cs := [tk T.«OUTPUT» u0.text, tk T.«STRING» u1.text, c2, tk T.«EQUAL» u3.text, c4]) (by have : YL [T.«OUTPUT», T.«STRING», N.«data_type», T.«EQUAL», N.«output_value»] [tk T.«OUTPUT» u0.text, tk T.«STRING» u1.text, c2, tk T.«EQUAL» u3.text, c4] (u0 :: (u1 :: (w2 ++ (u3 :: (w4 ++ ([])))))) n := (.tok k0 (by decide) (.tok k1 (by decide) (.nt (by simpa only [List.append_assoc, List.nil_append, List.append_nil, List.cons_append, nextT_append, nextT_cons, nextT_nil] using h2) (.tok k3 (by decide) (.nt (by simpa only [List.append_assoc, List.nil_append, List.append_nil, List.cons_append, nextT_append, nextT_cons, nextT_nil] using h4) .nil (fun h h' => by first | exact absurd h (by decide) | exact absurd h' (by decide)))) (fun h h' => by first | exact absurd h (by decide) | exact absurd h' (by decide))))); simpa only [List.append_assoc, List.nil_append, List.append_nil, List.cons_append, nextT_append, nextT_cons, nextT_nil] using this) (by simp only [keepKids', List.flatMap_cons, List.flatMap_nil, List.replicate_zero, List.replicate_succ, List.getElem?_cons_zero, List.getElem?_cons_succ, Bool.false_eq_true, if_true, if_false, List.append_nil, List.nil_append, List.cons_append, List.append_assoc, kidsOf_nd] <;> rfl)

theorem y_29 {n : Nat} {u0 : Tok} {u1 : Tok} {c2 : Tree} {w2 : List Tok} {u3 : Tok} {u4 : Tok} {c5 : Tree} {w5 : List Tok} (k0 : u0.type = T.«RESOURCE») (k1 : u1.type = T.«STRING») (h2 : Y N.«type_api_pair» c2 w2 u3.type) (k3 : u3.type = T.«EXISTING») (k4 : u4.type = T.«EQUAL») (h5 : Y N.«resource_value» c5 w5 n) {l : Lines} (hl : LinesOf l (u0 :: (u1 :: (w2 ++ (u3 :: (u4 :: w5)))))) :
    Y N.«element» (ndl "resource" (Tree.none :: (tk T.«STRING» u1.text :: (c2 :: (tk T.«EXISTING» u3.text :: [c5])))) l) (u0 :: (u1 :: (w2 ++ (u3 :: (u4 :: w5))))) n :=
  Y.nodeL ⟨N.«element», [T.«RESOURCE», T.«STRING», N.«type_api_pair», T.«EXISTING», T.«EQUAL», N.«resource_value»], "resource", false, [(1, false, 1), (2, false, 0), (3, false, 0), (5, false, 0)], 0⟩ (by decide +kernel) rfl (by decide) (free_plain (by decide) (by decide)) hl (cs := [tk T.«RESOURCE» u0.text, tk T.«STRING» u1.text, c2, tk T.«EXISTING» u3.text, tk T.«EQUAL» u4.text, c5]) (by have : YL [T.«RESOURCE», T.«STRING», N.«type_api_pair», T.«EXISTING», T.«EQUAL», N.«resource_value»] [tk T.«RESOURCE» u0.text, tk T.«STRING» u1.text, c2, tk T.«EXISTING» u3.text, tk T.«EQUAL» u4.text, c5] (u0 :: (u1 :: (w2 ++ (u3 :: (u4 :: (w5 ++ ([]))))))) n := (.tok k0 (by decide) (.tok k1 (by decide) (.nt (by simpa only [List.append_assoc, List.nil_append, List.append_nil, List.cons_append, nextT_append, nextT_cons, nextT_nil] using h2) (.tok k3 (by decide) (.tok k4 (by decide) (.nt (by simpa only [List.append_assoc, List.nil_append, List.append_nil, List.cons_append, nextT_append, nextT_cons, nextT_nil] using h5) .nil (fun h h' => by first | exact absurd h (by decide) | exact absurd h' (by decide))))) (fun h h' => by first | exact absurd h (by decide) | exact absurd h' (by decide))))); simpa only [List.append_assoc, List.nil_append, List.append_nil, List.cons_append, nextT_append, nextT_cons, nextT_nil] using this) (by simp only [keepKids', List.flatMap_cons, List.flatMap_nil, List.replicate_zero, List.replicate_succ, List.getElem?_cons_zero, List.getElem?_cons_succ, Bool.false_eq_true, if_true, if_false, List.append_nil, List.nil_append, List.cons_append, List.append_assoc, kidsOf_nd] <;> rfl)

theorem y_32 {n : Nat} {u0 : Tok} {u1 : Tok} {c2 : Tree} {w2 : List Tok} {u3 : Tok} {c4 : Tree} {w4 : List Tok} (k0 : u0.type = T.«MODULE») (k1 : u1.type = T.«STRING») (h2 : Y N.«module_path» c2 w2 u3.type) (k3 : u3.type = T.«EQUAL») (h4 : Y N.«module_value» c4 w4 n) {l : Lines} (hl : LinesOf l (u0 :: (u1 :: (w2 ++ (u3 :: w4))))) :
    Y N.«element» (ndl "module" (Tree.none :: (tk T.«STRING» u1.text :: (c2 :: [c4]))) l) (u0 :: (u1 :: (w2 ++ (u3 :: w4)))) n :=
  Y.nodeL ⟨N.«element», [T.«MODULE», T.«STRING», N.«module_path», T.«EQUAL», N.«module_value»], "module", false, [(1, false, 1), (2, false, 0), (4, false, 0)], 0⟩ (by decide +kernel) rfl (by decide) (free_plain (by decide) (by decide)) hl (cs := [tk T.«MODULE» u0.text, tk T.«STRING» u1.text, c2, tk T.«EQUAL» u3.text, c4]) (by have : YL [T.«MODULE», T.«STRING», N.«module_path», T.«EQUAL», N.«module_value»] [tk T.«MODULE» u0.text, tk T.«STRING» u1.text, c2, tk T.«EQUAL» u3.text, c4] (u0 :: (u1 :: (w2 ++ (u3 :: (w4 ++ ([])))))) n := (.tok k0 (by decide) (.tok k1 (by decide) (.nt (by simpa only [List.append_assoc, List.nil_append, List.append_nil, List.cons_append, nextT_append, nextT_cons, nextT_nil] using h2) (.tok k3 (by decide) (.nt (by simpa only [List.append_assoc, List.nil_append, List.append_nil, List.cons_append, nextT_append, nextT_cons, nextT_nil] using h4) .nil (fun h h' => by first | exact absurd h (by decide) | exact absurd h' (by decide)))) (fun h h' => by first | exact absurd h (by decide) | exact absurd h' (by decide))))); simpa only [List.append_assoc, List.nil_append, List.append_nil, List.cons_append, nextT_append, nextT_cons, nextT_nil] using this) (by simp only [keepKids', List.flatMap_cons, List.flatMap_nil, List.replicate_zero, List.replicate_succ, List.getElem?_cons_zero, List.getElem?_cons_succ, Bool.false_eq_true, if_true, if_false, List.append_nil, List.nil_append, List.cons_append, List.append_assoc, kidsOf_nd] <;> rfl)

theorem y_35 {n : Nat} {c0 : Tree} {w0 : List Tok} {u1 : Tok} {t2 : List Tree} {w2 : List Tok} (h0 : Y N.«decorators» c0 w0 u1.type) (k1 : u1.type = T.«FUNC») (h2 : Y N.«_func_statement» (nd "_func_statement" t2) w2 n) {l : Lines} (hl : LinesOf l (w0 ++ (u1 :: w2))) :
    Y N.«element» (ndl "custom_func" (c0 :: t2) l) (w0 ++ (u1 :: w2)) n :=
  Y.nodeL ⟨N.«element», [N.«decorators», T.«FUNC», N.«_func_statement»], "custom_func", false, [(0, false, 0), (2, true, 0)], 0⟩ (by decide +kernel) rfl (by decide) (free_plain (by decide) (by decide)) hl (cs := [c0, tk T.«FUNC» u1.text, nd "_func_statement" t2]) (by have : YL [N.«decorators», T.«FUNC», N.«_func_statement»] [c0, tk T.«FUNC» u1.text, nd "_func_statement" t2] (w0 ++ (u1 :: (w2 ++ ([])))) n := (.nt (by simpa only [List.append_assoc, List.nil_append, List.append_nil, List.cons_append, nextT_append, nextT_cons, nextT_nil] using h0) (.tok k1 (by decide) (.nt (by simpa only [List.append_assoc, List.nil_append, List.append_nil, List.cons_append, nextT_append, nextT_cons, nextT_nil] using h2) .nil (fun h h' => by first | exact absurd h (by decide) | exact absurd h' (by decide)))) (fun h h' => by first | exact absurd h (by decide) | exact absurd h' (by decide))); simpa only [List.append_assoc, List.nil_append, List.append_nil, List.cons_append, nextT_append, nextT_cons, nextT_nil] using this) (by simp only [keepKids', List.flatMap_cons, List.flatMap_nil, List.replicate_zero, List.replicate_succ, List.getElem?_cons_zero, List.getElem?_cons_succ, Bool.false_eq_true, if_true, if_false, List.append_nil, List.nil_append, List.cons_append, List.append_assoc, kidsOf_nd] <;> rfl)

theorem y_38 {n : Nat} {u0 : Tok} (k0 : u0.type = T.«NULL») :
    Y N.«value» (nd "null" []) [u0] n :=
  Y.node ⟨N.«value», [T.«NULL»], "null", false, [], 0⟩ (by decide +kernel) rfl (by decide) (free_plain (by decide) (by decide)) (cs := [tk T.«NULL» u0.text]) (by have : YL [T.«NULL»] [tk T.«NULL» u0.text] (u0 :: ([])) n := (.tok k0 (by decide) .nil); simpa only [List.append_assoc, List.nil_append, List.append_nil, List.cons_append, nextT_append, nextT_cons, nextT_nil] using this) (by simp only [keepKids', List.flatMap_cons, List.flatMap_nil, List.replicate_zero, List.replicate_succ, List.getElem?_cons_zero, List.getElem?_cons_succ, Bool.false_eq_true, if_true, if_false, List.append_nil, List.nil_append, List.cons_append, List.append_assoc, kidsOf_nd] <;> rfl)

theorem y_41 {n : Nat} {u0 : Tok} {u1 : Tok} (k0 : u0.type = T.«_NEWLINE») (k1 : u1.type = T.«FALSE») :
    Y N.«value» (nd "false" []) (u0 :: [u1]) n :=
  Y.node ⟨N.«value», [T.«_NEWLINE», T.«FALSE»], "false", false, [], 0⟩ (by decide +kernel) rfl (by decide) (free_plain (by decide) (by decide)) (cs := [tk T.«_NEWLINE» u0.text, tk T.«FALSE» u1.text]) (by have : YL [T.«_NEWLINE», T.«FALSE»] [tk T.«_NEWLINE» u0.text, tk T.«FALSE» u1.text] (u0 :: (u1 :: ([]))) n := (.tok k0 (by decide) (.tok k1 (by decide) .nil)); simpa only [List.append_assoc, List.nil_append, List.append_nil, List.cons_append, nextT_append, nextT_cons, nextT_nil] using this) (by simp only [keepKids', List.flatMap_cons, List.flatMap_nil, List.replicate_zero, List.replicate_succ, List.getElem?_cons_zero, List.getElem?_cons_succ, Bool.false_eq_true, if_true, if_false, List.append_nil, List.nil_append, List.cons_append, List.append_assoc, kidsOf_nd] <;> rfl)

theorem y_44 {n : Nat} {u0 : Tok} (k0 : u0.type = T.«INT») :
    Y N.«value» (nd "int_type" [tk T.«INT» u0.text]) [u0] n :=
  Y.node ⟨N.«value», [T.«INT»], "int_type", false, [(0, false, 0)], 0⟩ (by decide +kernel) rfl (by decide) (free_plain (by decide) (by decide)) (cs := [tk T.«INT» u0.text]) (by have : YL [T.«INT»] [tk T.«INT» u0.text] (u0 :: ([])) n := (.tok k0 (by decide) .nil); simpa only [List.append_assoc, List.nil_append, List.append_nil, List.cons_append, nextT_append, nextT_cons, nextT_nil] using this) (by simp only [keepKids', List.flatMap_cons, List.flatMap_nil, List.replicate_zero, List.replicate_succ, List.getElem?_cons_zero, List.getElem?_cons_succ, Bool.false_eq_true, if_true, if_false, List.append_nil, List.nil_append, List.cons_append, List.append_assoc, kidsOf_nd] <;> rfl)

theorem y_47 {n : Nat} {u0 : Tok} {u1 : Tok} (k0 : u0.type = T.«_NEWLINE») (k1 : u1.type = T.«QUOTED_INTERPOLATION») :
    Y N.«value» (nd "string" [tk T.«QUOTED_INTERPOLATION» u1.text]) (u0 :: [u1]) n :=
  Y.node ⟨N.«value», [T.«_NEWLINE», T.«QUOTED_INTERPOLATION»], "string", false, [(1, false, 0)], 0⟩ (by decide +kernel) rfl (by decide) (free_plain (by decide) (by decide)) (cs := [tk T.«_NEWLINE» u0.text, tk T.«QUOTED_INTERPOLATION» u1.text]) (by have : YL [T.«_NEWLINE», T.«QUOTED_INTERPOLATION»] [tk T.«_NEWLINE» u0.text, tk T.«QUOTED_INTERPOLATION» u1.text] (u0 :: (u1 :: ([]))) n := (.tok k0 (by decide) (.tok k1 (by decide) .nil)); simpa only [List.append_assoc, List.nil_append, List.append_nil, List.cons_append, nextT_append, nextT_cons, nextT_nil] using this) (by simp only [keepKids', List.flatMap_cons, List.flatMap_nil, List.replicate_zero, List.replicate_succ, List.getElem?_cons_zero, List.getElem?_cons_succ, Bool.false_eq_true, if_true, if_false, List.append_nil, List.nil_append, List.cons_append, List.append_assoc, kidsOf_nd] <;> rfl)

theorem y_50 {n : Nat} {c0 : Tree} {w0 : List Tok} (h0 : Y N.«array» c0 w0 n) (hm : isMeta c0 = false) :
    Y N.«value» (c0) w0 n :=
  Y.ex ⟨N.«value», [N.«array»], "value", true, [(0, false, 0)], 0⟩ (by decide +kernel) rfl (by decide) (free_plain (by decide) (by decide)) (cs := [c0]) (by have : YL [N.«array»] [c0] (w0 ++ ([])) n := (.nt (by simpa only [List.append_assoc, List.nil_append, List.append_nil, List.cons_append, nextT_append, nextT_cons, nextT_nil] using h0) .nil (fun h h' => by first | exact absurd h (by decide) | exact absurd h' (by decide))); simpa only [List.append_assoc, List.nil_append, List.append_nil, List.cons_append, nextT_append, nextT_cons, nextT_nil] using this) (by simp only [keepKids', List.flatMap_cons, List.flatMap_nil, List.replicate_zero, List.replicate_succ, List.getElem?_cons_zero, List.getElem?_cons_succ, Bool.false_eq_true, if_true, if_false, List.append_nil, List.nil_append, List.cons_append, List.append_assoc, kidsOf_nd] <;> rfl) hm

theorem y_53 {n : Nat} {c0 : Tree} {w0 : List Tok} (h0 : Y N.«function» c0 w0 n) (hm : isMeta c0 = false) :
    Y N.«value» (c0) w0 n :=
  Y.ex ⟨N.«value», [N.«function»], "value", true, [(0, false, 0)], 0⟩ (by decide +kernel) rfl (by decide) (free_plain (by decide) (by decide)) (cs := [c0]) (by have : YL [N.«function»] [c0] (w0 ++ ([])) n := (.nt (by simpa only [List.append_assoc, List.nil_append, List.append_nil, List.cons_append, nextT_append, nextT_cons, nextT_nil] using h0) .nil (fun h h' => by first | exact absurd h (by decide) | exact absurd h' (by decide))); simpa only [List.append_assoc, List.nil_append, List.append_nil, List.cons_append, nextT_append, nextT_cons, nextT_nil] using this) (by simp only [keepKids', List.flatMap_cons, List.flatMap_nil, List.replicate_zero, List.replicate_succ, List.getElem?_cons_zero, List.getElem?_cons_succ, Bool.false_eq_true, if_true, if_false, List.append_nil, List.nil_append, List.cons_append, List.append_assoc, kidsOf_nd] <;> rfl) hm

theorem y_56 {n : Nat} {c0 : Tree} {w0 : List Tok} {u1 : Tok} (h0 : Y N.«value» c0 w0 u1.type) (k1 : u1.type = T.«BANG») (hm : isMeta c0 = false) :
    Y N.«value_brackets» (c0) (w0 ++ [u1]) n :=
  Y.ex ⟨N.«value_brackets», [N.«value», T.«BANG»], "value_brackets", true, [(0, false, 0)], 0⟩ (by decide +kernel) rfl (by decide) (free_plain (by decide) (by decide)) (cs := [c0, tk T.«BANG» u1.text]) (by have : YL [N.«value», T.«BANG»] [c0, tk T.«BANG» u1.text] (w0 ++ (u1 :: ([]))) n := (.nt (by simpa only [List.append_assoc, List.nil_append, List.append_nil, List.cons_append, nextT_append, nextT_cons, nextT_nil] using h0) (.tok k1 (by decide) .nil) (fun h h' => by first | exact absurd h (by decide) | exact absurd h' (by decide))); simpa only [List.append_assoc, List.nil_append, List.append_nil, List.cons_append, nextT_append, nextT_cons, nextT_nil] using this) (by simp only [keepKids', List.flatMap_cons, List.flatMap_nil, List.replicate_zero, List.replicate_succ, List.getElem?_cons_zero, List.getElem?_cons_succ, Bool.false_eq_true, if_true, if_false, List.append_nil, List.nil_append, List.cons_append, List.append_assoc, kidsOf_nd] <;> rfl) hm

theorem y_59 {n : Nat} {u0 : Tok} {c1 : Tree} {w1 : List Tok} {u2 : Tok} (k0 : u0.type = T.«LPAR») (h1 : Y N.«value» c1 w1 u2.type) (k2 : u2.type = T.«RPAR») (hn : NoBang n) (hm : isMeta c1 = false) :
    Y N.«value_brackets» (c1) (u0 :: (w1 ++ [u2])) n :=
  Y.ex ⟨N.«value_brackets», [T.«LPAR», N.«value», T.«RPAR»], "value_brackets", true, [(1, false, 0)], 0⟩ (by decide +kernel) rfl (by decide) (by unfold badNode badReduce; rw [beq_false hn.ne]; rfl) (cs := [tk T.«LPAR» u0.text, c1, tk T.«RPAR» u2.text]) (by have : YL [T.«LPAR», N.«value», T.«RPAR»] [tk T.«LPAR» u0.text, c1, tk T.«RPAR» u2.text] (u0 :: (w1 ++ (u2 :: ([])))) n := (.tok k0 (by decide) (.nt (by simpa only [List.append_assoc, List.nil_append, List.append_nil, List.cons_append, nextT_append, nextT_cons, nextT_nil] using h1) (.tok k2 (by decide) .nil) (fun h h' => by first | exact absurd h (by decide) | exact absurd h' (by decide)))); simpa only [List.append_assoc, List.nil_append, List.append_nil, List.cons_append, nextT_append, nextT_cons, nextT_nil] using this) (by simp only [keepKids', List.flatMap_cons, List.flatMap_nil, List.replicate_zero, List.replicate_succ, List.getElem?_cons_zero, List.getElem?_cons_succ, Bool.false_eq_true, if_true, if_false, List.append_nil, List.nil_append, List.cons_append, List.append_assoc, kidsOf_nd] <;> rfl) hm

theorem y_62 {n : Nat} {c0 : Tree} {w0 : List Tok} {u1 : Tok} {u2 : Tok} (h0 : Y N.«import_alias» c0 w0 u1.type) (k1 : u1.type = T.«FROM») (k2 : u2.type = T.«QUOTED_INTERPOLATION») :
    Y N.«_import_statement» (nd "_import_statement" (c0 :: [tk T.«QUOTED_INTERPOLATION» u2.text])) (w0 ++ (u1 :: [u2])) n :=
  Y.node ⟨N.«_import_statement», [N.«import_alias», T.«FROM», T.«QUOTED_INTERPOLATION»], "_import_statement", false, [(0, false, 0), (2, false, 0)], 0⟩ (by decide +kernel) rfl (by decide) (free_plain (by decide) (by decide)) (cs := [c0, tk T.«FROM» u1.text, tk T.«QUOTED_INTERPOLATION» u2.text]) (by have : YL [N.«import_alias», T.«FROM», T.«QUOTED_INTERPOLATION»] [c0, tk T.«FROM» u1.text, tk T.«QUOTED_INTERPOLATION» u2.text] (w0 ++ (u1 :: (u2 :: ([])))) n := (.nt (by simpa only [List.append_assoc, List.nil_append, List.append_nil, List.cons_append, nextT_append, nextT_cons, nextT_nil] using h0) (.tok k1 (by decide) (.tok k2 (by decide) .nil)) (fun h h' => by first | exact absurd h (by decide) | exact absurd h' (by decide))); simpa only [List.append_assoc, List.nil_append, List.append_nil, List.cons_append, nextT_append, nextT_cons, nextT_nil] using this) (by simp only [keepKids', List.flatMap_cons, List.flatMap_nil, List.replicate_zero, List.replicate_succ, List.getElem?_cons_zero, List.getElem?_cons_succ, Bool.false_eq_true, if_true, if_false, List.append_nil, List.nil_append, List.cons_append, List.append_assoc, kidsOf_nd] <;> rfl)

theorem y_65 {n : Nat} {u0 : Tok} {u1 : Tok} {u2 : Tok} {c3 : Tree} {w3 : List Tok} {u4 : Tok} {c5 : Tree} {w5 : List Tok} {u6 : Tok} {c7 : Tree} {w7 : List Tok} (k0 : u0.type = T.«STRING») (k1 : u1.type = T.«LPAR») (k2 : u2.type = T.«STRING») (h3 : Y N.«data_type» c3 w3 u4.type) (k4 : u4.type = T.«RPAR») (h5 : Y N.«data_type» c5 w5 u6.type) (k6 : u6.type = T.«__ANON_0») (h7 : Y N.«value_brackets» c7 w7 n) (hn : NoInfix n) :
    Y N.«_func_statement» (nd "_func_statement" (tk T.«STRING» u0.text :: (tk T.«STRING» u2.text :: (c3 :: (c5 :: [c7]))))) (u0 :: (u1 :: (u2 :: (w3 ++ (u4 :: (w5 ++ (u6 :: w7))))))) n :=
  Y.node ⟨N.«_func_statement», [T.«STRING», T.«LPAR», T.«STRING», N.«data_type», T.«RPAR», N.«data_type», T.«__ANON_0», N.«value_brackets»], "_func_statement", false, [(0, false, 0), (2, false, 0), (3, false, 0), (5, false, 0), (7, false, 0)], 0⟩ (by decide +kernel) rfl (by decide) (free_infix (by decide) hn) (cs := [tk T.«STRING» u0.text, tk T.«LPAR» u1.text, tk T.«STRING» u2.text, c3, tk T.«RPAR» u4.text, c5, tk T.«__ANON_0» u6.text, c7]) (by have : YL [T.«STRING», T.«LPAR», T.«STRING», N.«data_type», T.«RPAR», N.«data_type», T.«__ANON_0», N.«value_brackets»] [tk T.«STRING» u0.text, tk T.«LPAR» u1.text, tk T.«STRING» u2.text, c3, tk T.«RPAR» u4.text, c5, tk T.«__ANON_0» u6.text, c7] (u0 :: (u1 :: (u2 :: (w3 ++ (u4 :: (w5 ++ (u6 :: (w7 ++ ([]))))))))) n := (.tok k0 (by decide) (.tok k1 (by decide) (.tok k2 (by decide) (.nt (by simpa only [List.append_assoc, List.nil_append, List.append_nil, List.cons_append, nextT_append, nextT_cons, nextT_nil] using h3) (.tok k4 (by decide) (.nt (by simpa only [List.append_assoc, List.nil_append, List.append_nil, List.cons_append, nextT_append, nextT_cons, nextT_nil] using h5) (.tok k6 (by decide) (.nt (by simpa only [List.append_assoc, List.nil_append, List.append_nil, List.cons_append, nextT_append, nextT_cons, nextT_nil] using h7) .nil (fun h h' => by first | exact absurd h (by decide) | exact absurd h' (by decide)))) (fun h h' => by first | exact absurd h (by decide) | exact absurd h' (by decide)))) (fun h h' => by first | exact absurd h (by decide) | exact absurd h' (by decide)))))); simpa only [List.append_assoc, List.nil_append, List.append_nil, List.cons_append, nextT_append, nextT_cons, nextT_nil] using this) (by simp only [keepKids', List.flatMap_cons, List.flatMap_nil, List.replicate_zero, List.replicate_succ, List.getElem?_cons_zero, List.getElem?_cons_succ, Bool.false_eq_true, if_true, if_false, List.append_nil, List.nil_append, List.cons_append, List.append_assoc, kidsOf_nd] <;> rfl)

theorem y_68 {n : Nat} {c0 : Tree} {w0 : List Tok} (h0 : Y N.«loop» c0 w0 n) (hm : isMeta c0 = false) :
    Y N.«var_value» (c0) w0 n :=
  Y.ex ⟨N.«var_value», [N.«loop»], "var_value", true, [(0, false, 0)], 0⟩ (by decide +kernel) rfl (by decide) (free_plain (by decide) (by decide)) (cs := [c0]) (by have : YL [N.«loop»] [c0] (w0 ++ ([])) n := (.nt (by simpa only [List.append_assoc, List.nil_append, List.append_nil, List.cons_append, nextT_append, nextT_cons, nextT_nil] using h0) .nil (fun h h' => by first | exact absurd h (by decide) | exact absurd h' (by decide))); simpa only [List.append_assoc, List.nil_append, List.append_nil, List.cons_append, nextT_append, nextT_cons, nextT_nil] using this) (by simp only [keepKids', List.flatMap_cons, List.flatMap_nil, List.replicate_zero, List.replicate_succ, List.getElem?_cons_zero, List.getElem?_cons_succ, Bool.false_eq_true, if_true, if_false, List.append_nil, List.nil_append, List.cons_append, List.append_assoc, kidsOf_nd] <;> rfl) hm

theorem y_71 {n : Nat} {c0 : Tree} {w0 : List Tok} (h0 : Y N.«loop» c0 w0 n) (hm : isMeta c0 = false) :
    Y N.«output_value» (c0) w0 n :=
  Y.ex ⟨N.«output_value», [N.«loop»], "output_value", true, [(0, false, 0)], 0⟩ (by decide +kernel) rfl (by decide) (free_plain (by decide) (by decide)) (cs := [c0]) (by have : YL [N.«loop»] [c0] (w0 ++ ([])) n := (.nt (by simpa only [List.append_assoc, List.nil_append, List.append_nil, List.cons_append, nextT_append, nextT_cons, nextT_nil] using h0) .nil (fun h h' => by first | exact absurd h (by decide) | exact absurd h' (by decide))); simpa only [List.append_assoc, List.nil_append, List.append_nil, List.cons_append, nextT_append, nextT_cons, nextT_nil] using this) (by simp only [keepKids', List.flatMap_cons, List.flatMap_nil, List.replicate_zero, List.replicate_succ, List.getElem?_cons_zero, List.getElem?_cons_succ, Bool.false_eq_true, if_true, if_false, List.append_nil, List.nil_append, List.cons_append, List.append_assoc, kidsOf_nd] <;> rfl) hm

theorem y_74 {n : Nat} {c0 : Tree} {w0 : List Tok} (h0 : Y N.«deploy_condition» c0 w0 n) (hm : isMeta c0 = false) :
    Y N.«resource_value» (c0) w0 n :=
  Y.ex ⟨N.«resource_value», [N.«deploy_condition»], "resource_value", true, [(0, false, 0)], 0⟩ (by decide +kernel) rfl (by decide) (free_plain (by decide) (by decide)) (cs := [c0]) (by have : YL [N.«deploy_condition»] [c0] (w0 ++ ([])) n := (.nt (by simpa only [List.append_assoc, List.nil_append, List.append_nil, List.cons_append, nextT_append, nextT_cons, nextT_nil] using h0) .nil (fun h h' => by first | exact absurd h (by decide) | exact absurd h' (by decide))); simpa only [List.append_assoc, List.nil_append, List.append_nil, List.cons_append, nextT_append, nextT_cons, nextT_nil] using this) (by simp only [keepKids', List.flatMap_cons, List.flatMap_nil, List.replicate_zero, List.replicate_succ, List.getElem?_cons_zero, List.getElem?_cons_succ, Bool.false_eq_true, if_true, if_false, List.append_nil, List.nil_append, List.cons_append, List.append_assoc, kidsOf_nd] <;> rfl) hm

theorem y_77 {n : Nat} {c0 : Tree} {w0 : List Tok} (h0 : Y N.«deploy_condition» c0 w0 n) (hm : isMeta c0 = false) :
    Y N.«module_value» (c0) w0 n :=
  Y.ex ⟨N.«module_value», [N.«deploy_condition»], "module_value", true, [(0, false, 0)], 0⟩ (by decide +kernel) rfl (by decide) (free_plain (by decide) (by decide)) (cs := [c0]) (by have : YL [N.«deploy_condition»] [c0] (w0 ++ ([])) n := (.nt (by simpa only [List.append_assoc, List.nil_append, List.append_nil, List.cons_append, nextT_append, nextT_cons, nextT_nil] using h0) .nil (fun h h' => by first | exact absurd h (by decide) | exact absurd h' (by decide))); simpa only [List.append_assoc, List.nil_append, List.append_nil, List.cons_append, nextT_append, nextT_cons, nextT_nil] using this) (by simp only [keepKids', List.flatMap_cons, List.flatMap_nil, List.replicate_zero, List.replicate_succ, List.getElem?_cons_zero, List.getElem?_cons_succ, Bool.false_eq_true, if_true, if_false, List.append_nil, List.nil_append, List.cons_append, List.append_assoc, kidsOf_nd] <;> rfl) hm

theorem y_80 {n : Nat} {u0 : Tok} {u1 : Tok} {u2 : Tok} {u3 : Tok} {u4 : Tok} {c5 : Tree} {w5 : List Tok} {t6 : List Tree} {w6 : List Tok} (k0 : u0.type = T.«RESOURCE») (k1 : u1.type = T.«STRING») (k2 : u2.type = T.«QUOTED_INTERPOLATION») (k3 : u3.type = T.«EXISTING») (k4 : u4.type = T.«EQUAL») (h5 : Y N.«deploy_condition» c5 w5 (nextT w6 n)) (h6 : Y N.«__child_resource_plus_3» (nd "__child_resource_plus_3" t6) w6 n) (hn : n ≠ T._CPP_COMMENT_NL) {l : Lines} (hl : LinesOf l (u0 :: (u1 :: (u2 :: (u3 :: (u4 :: (w5 ++ w6))))))) :
    Y N.«child_resource» (ndl "child_resource" (tk T.«STRING» u1.text :: (tk T.«QUOTED_INTERPOLATION» u2.text :: (tk T.«EXISTING» u3.text :: (c5 :: t6)))) l) (u0 :: (u1 :: (u2 :: (u3 :: (u4 :: (w5 ++ w6)))))) n :=
  Y.nodeL ⟨N.«child_resource», [T.«RESOURCE», T.«STRING», T.«QUOTED_INTERPOLATION», T.«EXISTING», T.«EQUAL», N.«deploy_condition», N.«__child_resource_plus_3»], "child_resource", false, [(1, false, 0), (2, false, 0), (3, false, 0), (5, false, 0), (6, true, 0)], 0⟩ (by decide +kernel) rfl (by decide) (by unfold badNode badReduce; rw [beq_false hn]; rfl) hl (cs := [tk T.«RESOURCE» u0.text, tk T.«STRING» u1.text, tk T.«QUOTED_INTERPOLATION» u2.text, tk T.«EXISTING» u3.text, tk T.«EQUAL» u4.text, c5, nd "__child_resource_plus_3" t6]) (by have : YL [T.«RESOURCE», T.«STRING», T.«QUOTED_INTERPOLATION», T.«EXISTING», T.«EQUAL», N.«deploy_condition», N.«__child_resource_plus_3»] [tk T.«RESOURCE» u0.text, tk T.«STRING» u1.text, tk T.«QUOTED_INTERPOLATION» u2.text, tk T.«EXISTING» u3.text, tk T.«EQUAL» u4.text, c5, nd "__child_resource_plus_3" t6] (u0 :: (u1 :: (u2 :: (u3 :: (u4 :: (w5 ++ (w6 ++ ([])))))))) n := (.tok k0 (by decide) (.tok k1 (by decide) (.tok k2 (by decide) (.tok k3 (by decide) (.tok k4 (by decide) (.nt (by simpa only [List.append_assoc, List.nil_append, List.append_nil, List.cons_append, nextT_append, nextT_cons, nextT_nil] using h5) (.nt (by simpa only [List.append_assoc, List.nil_append, List.append_nil, List.cons_append, nextT_append, nextT_cons, nextT_nil] using h6) .nil (fun h h' => by first | exact absurd h (by decide) | exact absurd h' (by decide))) (fun h h' => by first | exact absurd h (by decide) | exact absurd h' (by decide)))))))); simpa only [List.append_assoc, List.nil_append, List.append_nil, List.cons_append, nextT_append, nextT_cons, nextT_nil] using this) (by simp only [keepKids', List.flatMap_cons, List.flatMap_nil, List.replicate_zero, List.replicate_succ, List.getElem?_cons_zero, List.getElem?_cons_succ, Bool.false_eq_true, if_true, if_false, List.append_nil, List.nil_append, List.cons_append, List.append_assoc, kidsOf_nd] <;> rfl)

theorem y_83 {n : Nat} {u0 : Tok} {u1 : Tok} {u2 : Tok} {u3 : Tok} {c4 : Tree} {w4 : List Tok} {t5 : List Tree} {w5 : List Tok} (k0 : u0.type = T.«RESOURCE») (k1 : u1.type = T.«STRING») (k2 : u2.type = T.«QUOTED_INTERPOLATION») (k3 : u3.type = T.«EQUAL») (h4 : Y N.«deploy_condition» c4 w4 (nextT w5 n)) (h5 : Y N.«__child_resource_plus_3» (nd "__child_resource_plus_3" t5) w5 n) (hn : n ≠ T._CPP_COMMENT_NL) {l : Lines} (hl : LinesOf l (u0 :: (u1 :: (u2 :: (u3 :: (w4 ++ w5)))))) :
    Y N.«child_resource» (ndl "child_resource" (tk T.«STRING» u1.text :: (tk T.«QUOTED_INTERPOLATION» u2.text :: (Tree.none :: (c4 :: t5)))) l) (u0 :: (u1 :: (u2 :: (u3 :: (w4 ++ w5))))) n :=
  Y.nodeL ⟨N.«child_resource», [T.«RESOURCE», T.«STRING», T.«QUOTED_INTERPOLATION», T.«EQUAL», N.«deploy_condition», N.«__child_resource_plus_3»], "child_resource", false, [(1, false, 0), (2, false, 0), (4, false, 1), (5, true, 0)], 0⟩ (by decide +kernel) rfl (by decide) (by unfold badNode badReduce; rw [beq_false hn]; rfl) hl (cs := [tk T.«RESOURCE» u0.text, tk T.«STRING» u1.text, tk T.«QUOTED_INTERPOLATION» u2.text, tk T.«EQUAL» u3.text, c4, nd "__child_resource_plus_3" t5]) (by have : YL [T.«RESOURCE», T.«STRING», T.«QUOTED_INTERPOLATION», T.«EQUAL», N.«deploy_condition», N.«__child_resource_plus_3»] [tk T.«RESOURCE» u0.text, tk T.«STRING» u1.text, tk T.«QUOTED_INTERPOLATION» u2.text, tk T.«EQUAL» u3.text, c4, nd "__child_resource_plus_3" t5] (u0 :: (u1 :: (u2 :: (u3 :: (w4 ++ (w5 ++ ([]))))))) n := (.tok k0 (by decide) (.tok k1 (by decide) (.tok k2 (by decide) (.tok k3 (by decide) (.nt (by simpa only [List.append_assoc, List.nil_append, List.append_nil, List.cons_append, nextT_append, nextT_cons, nextT_nil] using h4) (.nt (by simpa only [List.append_assoc, List.nil_append, List.append_nil, List.cons_append, nextT_append, nextT_cons, nextT_nil] using h5) .nil (fun h h' => by first | exact absurd h (by decide) | exact absurd h' (by decide))) (fun h h' => by first | exact absurd h (by decide) | exact absurd h' (by decide))))))); simpa only [List.append_assoc, List.nil_append, List.append_nil, List.cons_append, nextT_append, nextT_cons, nextT_nil] using this) (by simp only [keepKids', List.flatMap_cons, List.flatMap_nil, List.replicate_zero, List.replicate_succ, List.getElem?_cons_zero, List.getElem?_cons_succ, Bool.false_eq_true, if_true, if_false, List.append_nil, List.nil_append, List.cons_append, List.append_assoc, kidsOf_nd] <;> rfl)

theorem y_86 {n : Nat} {c0 : Tree} {w0 : List Tok} {t1 : List Tree} {w1 : List Tok} (h0 : Y N.«base_type» c0 w0 (nextT w1 n)) (h1 : Y N.«__data_type_star_5» (nd "__data_type_star_5" t1) w1 n) :
    Y N.«data_type» (nd "data_type" (c0 :: t1)) (w0 ++ w1) n :=
  Y.node ⟨N.«data_type», [N.«base_type», N.«__data_type_star_5»], "data_type", false, [(0, false, 0), (1, true, 0)], 0⟩ (by decide +kernel) rfl (by decide) (free_plain (by decide) (by decide)) (cs := [c0, nd "__data_type_star_5" t1]) (by have : YL [N.«base_type», N.«__data_type_star_5»] [c0, nd "__data_type_star_5" t1] (w0 ++ (w1 ++ ([]))) n := (.nt (by simpa only [List.append_assoc, List.nil_append, List.append_nil, List.cons_append, nextT_append, nextT_cons, nextT_nil] using h0) (.nt (by simpa only [List.append_assoc, List.nil_append, List.append_nil, List.cons_append, nextT_append, nextT_cons, nextT_nil] using h1) .nil (fun h h' => by first | exact absurd h (by decide) | exact absurd h' (by decide))) (fun h h' => by first | exact absurd h (by decide) | exact absurd h' (by decide))); simpa only [List.append_assoc, List.nil_append, List.append_nil, List.cons_append, nextT_append, nextT_cons, nextT_nil] using this) (by simp only [keepKids', List.flatMap_cons, List.flatMap_nil, List.replicate_zero, List.replicate_succ, List.getElem?_cons_zero, List.getElem?_cons_succ, Bool.false_eq_true, if_true, if_false, List.append_nil, List.nil_append, List.cons_append, List.append_assoc, kidsOf_nd] <;> rfl)

theorem y_89 {n : Nat} {c0 : Tree} {w0 : List Tok} (h0 : Y N.«union_type» c0 w0 n) :
    Y N.«base_type» (nd "base_type" [c0]) w0 n :=
  Y.node ⟨N.«base_type», [N.«union_type»], "base_type", false, [(0, false, 0)], 0⟩ (by decide +kernel) rfl (by decide) (free_plain (by decide) (by decide)) (cs := [c0]) (by have : YL [N.«union_type»] [c0] (w0 ++ ([])) n := (.nt (by simpa only [List.append_assoc, List.nil_append, List.append_nil, List.cons_append, nextT_append, nextT_cons, nextT_nil] using h0) .nil (fun h h' => by first | exact absurd h (by decide) | exact absurd h' (by decide))); simpa only [List.append_assoc, List.nil_append, List.append_nil, List.cons_append, nextT_append, nextT_cons, nextT_nil] using this) (by simp only [keepKids', List.flatMap_cons, List.flatMap_nil, List.replicate_zero, List.replicate_succ, List.getElem?_cons_zero, List.getElem?_cons_succ, Bool.false_eq_true, if_true, if_false, List.append_nil, List.nil_append, List.cons_append, List.append_assoc, kidsOf_nd] <;> rfl)

theorem y_92 {n : Nat} {u0 : Tok} (k0 : u0.type = T.«QUOTED_INTERPOLATION») :
    Y N.«type_api_pair» (nd "type_api_pair" [tk T.«QUOTED_INTERPOLATION» u0.text]) [u0] n :=
  Y.node ⟨N.«type_api_pair», [T.«QUOTED_INTERPOLATION»], "type_api_pair", false, [(0, false, 0)], 0⟩ (by decide +kernel) rfl (by decide) (free_plain (by decide) (by decide)) (cs := [tk T.«QUOTED_INTERPOLATION» u0.text]) (by have : YL [T.«QUOTED_INTERPOLATION»] [tk T.«QUOTED_INTERPOLATION» u0.text] (u0 :: ([])) n := (.tok k0 (by decide) .nil); simpa only [List.append_assoc, List.nil_append, List.append_nil, List.cons_append, nextT_append, nextT_cons, nextT_nil] using this) (by simp only [keepKids', List.flatMap_cons, List.flatMap_nil, List.replicate_zero, List.replicate_succ, List.getElem?_cons_zero, List.getElem?_cons_succ, Bool.false_eq_true, if_true, if_false, List.append_nil, List.nil_append, List.cons_append, List.append_assoc, kidsOf_nd] <;> rfl)

theorem y_95 {n : Nat} {u0 : Tok} (k0 : u0.type = T.«STRING») :
    Y N.«import_alias» (nd "import_alias" (tk T.«STRING» u0.text :: [Tree.none])) [u0] n :=
  Y.node ⟨N.«import_alias», [T.«STRING»], "import_alias", false, [(0, false, 0)], 1⟩ (by decide +kernel) rfl (by decide) (free_plain (by decide) (by decide)) (cs := [tk T.«STRING» u0.text]) (by have : YL [T.«STRING»] [tk T.«STRING» u0.text] (u0 :: ([])) n := (.tok k0 (by decide) .nil); simpa only [List.append_assoc, List.nil_append, List.append_nil, List.cons_append, nextT_append, nextT_cons, nextT_nil] using this) (by simp only [keepKids', List.flatMap_cons, List.flatMap_nil, List.replicate_zero, List.replicate_succ, List.getElem?_cons_zero, List.getElem?_cons_succ, Bool.false_eq_true, if_true, if_false, List.append_nil, List.nil_append, List.cons_append, List.append_assoc, kidsOf_nd] <;> rfl)

theorem y_98 {n : Nat} {u0 : Tok} {u1 : Tok} {u2 : Tok} {c3 : Tree} {w3 : List Tok} {u4 : Tok} {c5 : Tree} {w5 : List Tok} {c6 : Tree} {w6 : List Tok} {u7 : Tok} {u8 : Tok} (k0 : u0.type = T.«LSQB») (k1 : u1.type = T.«_CPP_COMMENT_NL») (k2 : u2.type = T.«FOR») (h3 : Y N.«loop_array» c3 w3 u4.type) (k4 : u4.type = T.«COLON») (h5 : Y N.«value_brackets» c5 w5 (nextT w6 u7.type)) (hg : (nextT w6 u7.type) ≠ T.MINUS ∧ (nextT w6 u7.type) ≠ T.LSQB) (h6 : Y N.«value_brackets» c6 w6 u7.type) (k7 : u7.type = T.«_CPP_COMMENT_NL») (k8 : u8.type = T.«RSQB») :
    Y N.«loop» (nd "loop" (c3 :: (c5 :: [c6]))) (u0 :: (u1 :: (u2 :: (w3 ++ (u4 :: (w5 ++ (w6 ++ (u7 :: [u8])))))))) n :=
  Y.node ⟨N.«loop», [T.«LSQB», T.«_CPP_COMMENT_NL», T.«FOR», N.«loop_array», T.«COLON», N.«value_brackets», N.«value_brackets», T.«_CPP_COMMENT_NL», T.«RSQB»], "loop", false, [(3, false, 0), (5, false, 0), (6, false, 0)], 0⟩ (by decide +kernel) rfl (by decide) (free_plain (by decide) (by decide)) (cs := [tk T.«LSQB» u0.text, tk T.«_CPP_COMMENT_NL» u1.text, tk T.«FOR» u2.text, c3, tk T.«COLON» u4.text, c5, c6, tk T.«_CPP_COMMENT_NL» u7.text, tk T.«RSQB» u8.text]) (by have : YL [T.«LSQB», T.«_CPP_COMMENT_NL», T.«FOR», N.«loop_array», T.«COLON», N.«value_brackets», N.«value_brackets», T.«_CPP_COMMENT_NL», T.«RSQB»] [tk T.«LSQB» u0.text, tk T.«_CPP_COMMENT_NL» u1.text, tk T.«FOR» u2.text, c3, tk T.«COLON» u4.text, c5, c6, tk T.«_CPP_COMMENT_NL» u7.text, tk T.«RSQB» u8.text] (u0 :: (u1 :: (u2 :: (w3 ++ (u4 :: (w5 ++ (w6 ++ (u7 :: (u8 :: ([])))))))))) n := (.tok k0 (by decide) (.tok k1 (by decide) (.tok k2 (by decide) (.nt (by simpa only [List.append_assoc, List.nil_append, List.append_nil, List.cons_append, nextT_append, nextT_cons, nextT_nil] using h3) (.tok k4 (by decide) (.nt (by simpa only [List.append_assoc, List.nil_append, List.append_nil, List.cons_append, nextT_append, nextT_cons, nextT_nil] using h5) (.nt (by simpa only [List.append_assoc, List.nil_append, List.append_nil, List.cons_append, nextT_append, nextT_cons, nextT_nil] using h6) (.tok k7 (by decide) (.tok k8 (by decide) .nil)) (fun h h' => by first | exact absurd h (by decide) | exact absurd h' (by decide))) (fun _ _ => by simpa only [List.append_assoc, List.nil_append, List.append_nil, List.cons_append, nextT_append, nextT_cons, nextT_nil] using hg))) (fun h h' => by first | exact absurd h (by decide) | exact absurd h' (by decide)))))); simpa only [List.append_assoc, List.nil_append, List.append_nil, List.cons_append, nextT_append, nextT_cons, nextT_nil] using this) (by simp only [keepKids', List.flatMap_cons, List.flatMap_nil, List.replicate_zero, List.replicate_succ, List.getElem?_cons_zero, List.getElem?_cons_succ, Bool.false_eq_true, if_true, if_false, List.append_nil, List.nil_append, List.cons_append, List.append_assoc, kidsOf_nd] <;> rfl)

theorem y_101 {n : Nat} {u0 : Tok} {u1 : Tok} {u2 : Tok} {c3 : Tree} {w3 : List Tok} {u4 : Tok} {c5 : Tree} {w5 : List Tok} {u6 : Tok} (k0 : u0.type = T.«LSQB») (k1 : u1.type = T.«_CPP_COMMENT_NL») (k2 : u2.type = T.«FOR») (h3 : Y N.«loop_array» c3 w3 u4.type) (k4 : u4.type = T.«COLON») (h5 : Y N.«value_brackets» c5 w5 u6.type) (k6 : u6.type = T.«RSQB») :
    Y N.«loop» (nd "loop" (c3 :: (Tree.none :: [c5]))) (u0 :: (u1 :: (u2 :: (w3 ++ (u4 :: (w5 ++ [u6])))))) n :=
  Y.node ⟨N.«loop», [T.«LSQB», T.«_CPP_COMMENT_NL», T.«FOR», N.«loop_array», T.«COLON», N.«value_brackets», T.«RSQB»], "loop", false, [(3, false, 0), (5, false, 1)], 0⟩ (by decide +kernel) rfl (by decide) (free_plain (by decide) (by decide)) (cs := [tk T.«LSQB» u0.text, tk T.«_CPP_COMMENT_NL» u1.text, tk T.«FOR» u2.text, c3, tk T.«COLON» u4.text, c5, tk T.«RSQB» u6.text]) (by have : YL [T.«LSQB», T.«_CPP_COMMENT_NL», T.«FOR», N.«loop_array», T.«COLON», N.«value_brackets», T.«RSQB»] [tk T.«LSQB» u0.text, tk T.«_CPP_COMMENT_NL» u1.text, tk T.«FOR» u2.text, c3, tk T.«COLON» u4.text, c5, tk T.«RSQB» u6.text] (u0 :: (u1 :: (u2 :: (w3 ++ (u4 :: (w5 ++ (u6 :: ([])))))))) n := (.tok k0 (by decide) (.tok k1 (by decide) (.tok k2 (by decide) (.nt (by simpa only [List.append_assoc, List.nil_append, List.append_nil, List.cons_append, nextT_append, nextT_cons, nextT_nil] using h3) (.tok k4 (by decide) (.nt (by simpa only [List.append_assoc, List.nil_append, List.append_nil, List.cons_append, nextT_append, nextT_cons, nextT_nil] using h5) (.tok k6 (by decide) .nil) (fun h h' => by first | exact absurd h (by decide) | exact absurd h' (by decide)))) (fun h h' => by first | exact absurd h (by decide) | exact absurd h' (by decide)))))); simpa only [List.append_assoc, List.nil_append, List.append_nil, List.cons_append, nextT_append, nextT_cons, nextT_nil] using this) (by simp only [keepKids', List.flatMap_cons, List.flatMap_nil, List.replicate_zero, List.replicate_succ, List.getElem?_cons_zero, List.getElem?_cons_succ, Bool.false_eq_true, if_true, if_false, List.append_nil, List.nil_append, List.cons_append, List.append_assoc, kidsOf_nd] <;> rfl)

theorem y_104 {n : Nat} {u0 : Tok} {u1 : Tok} {u2 : Tok} {c3 : Tree} {w3 : List Tok} {u4 : Tok} {c5 : Tree} {w5 : List Tok} {u6 : Tok} {u7 : Tok} (k0 : u0.type = T.«LSQB») (k1 : u1.type = T.«_CPP_COMMENT_NL») (k2 : u2.type = T.«FOR») (h3 : Y N.«loop_array_index» c3 w3 u4.type) (k4 : u4.type = T.«COLON») (h5 : Y N.«value_brackets» c5 w5 u6.type) (k6 : u6.type = T.«_CPP_COMMENT_NL») (k7 : u7.type = T.«RSQB») :
    Y N.«loop» (nd "loop" (c3 :: (Tree.none :: [c5]))) (u0 :: (u1 :: (u2 :: (w3 ++ (u4 :: (w5 ++ (u6 :: [u7]))))))) n :=
  Y.node ⟨N.«loop», [T.«LSQB», T.«_CPP_COMMENT_NL», T.«FOR», N.«loop_array_index», T.«COLON», N.«value_brackets», T.«_CPP_COMMENT_NL», T.«RSQB»], "loop", false, [(3, false, 0), (5, false, 1)], 0⟩ (by decide +kernel) rfl (by decide) (free_plain (by decide) (by decide)) (cs := [tk T.«LSQB» u0.text, tk T.«_CPP_COMMENT_NL» u1.text, tk T.«FOR» u2.text, c3, tk T.«COLON» u4.text, c5, tk T.«_CPP_COMMENT_NL» u6.text, tk T.«RSQB» u7.text]) (by have : YL [T.«LSQB», T.«_CPP_COMMENT_NL», T.«FOR», N.«loop_array_index», T.«COLON», N.«value_brackets», T.«_CPP_COMMENT_NL», T.«RSQB»] [tk T.«LSQB» u0.text, tk T.«_CPP_COMMENT_NL» u1.text, tk T.«FOR» u2.text, c3, tk T.«COLON» u4.text, c5, tk T.«_CPP_COMMENT_NL» u6.text, tk T.«RSQB» u7.text] (u0 :: (u1 :: (u2 :: (w3 ++ (u4 :: (w5 ++ (u6 :: (u7 :: ([]))))))))) n := (.tok k0 (by decide) (.tok k1 (by decide) (.tok k2 (by decide) (.nt (by simpa only [List.append_assoc, List.nil_append, List.append_nil, List.cons_append, nextT_append, nextT_cons, nextT_nil] using h3) (.tok k4 (by decide) (.nt (by simpa only [List.append_assoc, List.nil_append, List.append_nil, List.cons_append, nextT_append, nextT_cons, nextT_nil] using h5) (.tok k6 (by decide) (.tok k7 (by decide) .nil)) (fun h h' => by first | exact absurd h (by decide) | exact absurd h' (by decide)))) (fun h h' => by first | exact absurd h (by decide) | exact absurd h' (by decide)))))); simpa only [List.append_assoc, List.nil_append, List.append_nil, List.cons_append, nextT_append, nextT_cons, nextT_nil] using this) (by simp only [keepKids', List.flatMap_cons, List.flatMap_nil, List.replicate_zero, List.replicate_succ, List.getElem?_cons_zero, List.getElem?_cons_succ, Bool.false_eq_true, if_true, if_false, List.append_nil, List.nil_append, List.cons_append, List.append_assoc, kidsOf_nd] <;> rfl)

theorem y_107 {n : Nat} {u0 : Tok} {u1 : Tok} {u2 : Tok} {c3 : Tree} {w3 : List Tok} {u4 : Tok} {c5 : Tree} {w5 : List Tok} {c6 : Tree} {w6 : List Tok} {u7 : Tok} (k0 : u0.type = T.«LSQB») (k1 : u1.type = T.«_CPP_COMMENT_NL») (k2 : u2.type = T.«FOR») (h3 : Y N.«loop_object» c3 w3 u4.type) (k4 : u4.type = T.«COLON») (h5 : Y N.«value_brackets» c5 w5 (nextT w6 u7.type)) (hg : (nextT w6 u7.type) ≠ T.MINUS ∧ (nextT w6 u7.type) ≠ T.LSQB) (h6 : Y N.«value_brackets» c6 w6 u7.type) (k7 : u7.type = T.«RSQB») :
    Y N.«loop» (nd "loop" (c3 :: (c5 :: [c6]))) (u0 :: (u1 :: (u2 :: (w3 ++ (u4 :: (w5 ++ (w6 ++ [u7]))))))) n :=
  Y.node ⟨N.«loop», [T.«LSQB», T.«_CPP_COMMENT_NL», T.«FOR», N.«loop_object», T.«COLON», N.«value_brackets», N.«value_brackets», T.«RSQB»], "loop", false, [(3, false, 0), (5, false, 0), (6, false, 0)], 0⟩ (by decide +kernel) rfl (by decide) (free_plain (by decide) (by decide)) (cs := [tk T.«LSQB» u0.text, tk T.«_CPP_COMMENT_NL» u1.text, tk T.«FOR» u2.text, c3, tk T.«COLON» u4.text, c5, c6, tk T.«RSQB» u7.text]) (by have : YL [T.«LSQB», T.«_CPP_COMMENT_NL», T.«FOR», N.«loop_object», T.«COLON», N.«value_brackets», N.«value_brackets», T.«RSQB»] [tk T.«LSQB» u0.text, tk T.«_CPP_COMMENT_NL» u1.text, tk T.«FOR» u2.text, c3, tk T.«COLON» u4.text, c5, c6, tk T.«RSQB» u7.text] (u0 :: (u1 :: (u2 :: (w3 ++ (u4 :: (w5 ++ (w6 ++ (u7 :: ([]))))))))) n := (.tok k0 (by decide) (.tok k1 (by decide) (.tok k2 (by decide) (.nt (by simpa only [List.append_assoc, List.nil_append, List.append_nil, List.cons_append, nextT_append, nextT_cons, nextT_nil] using h3) (.tok k4 (by decide) (.nt (by simpa only [List.append_assoc, List.nil_append, List.append_nil, List.cons_append, nextT_append, nextT_cons, nextT_nil] using h5) (.nt (by simpa only [List.append_assoc, List.nil_append, List.append_nil, List.cons_append, nextT_append, nextT_cons, nextT_nil] using h6) (.tok k7 (by decide) .nil) (fun h h' => by first | exact absurd h (by decide) | exact absurd h' (by decide))) (fun _ _ => by simpa only [List.append_assoc, List.nil_append, List.append_nil, List.cons_append, nextT_append, nextT_cons, nextT_nil] using hg))) (fun h h' => by first | exact absurd h (by decide) | exact absurd h' (by decide)))))); simpa only [List.append_assoc, List.nil_append, List.append_nil, List.cons_append, nextT_append, nextT_cons, nextT_nil] using this) (by simp only [keepKids', List.flatMap_cons, List.flatMap_nil, List.replicate_zero, List.replicate_succ, List.getElem?_cons_zero, List.getElem?_cons_succ, Bool.false_eq_true, if_true, if_false, List.append_nil, List.nil_append, List.cons_append, List.append_assoc, kidsOf_nd] <;> rfl)

theorem y_110 {n : Nat} {u0 : Tok} {u1 : Tok} {c2 : Tree} {w2 : List Tok} {u3 : Tok} {c4 : Tree} {w4 : List Tok} {c5 : Tree} {w5 : List Tok} {u6 : Tok} {u7 : Tok} (k0 : u0.type = T.«LSQB») (k1 : u1.type = T.«FOR») (h2 : Y N.«loop_array» c2 w2 u3.type) (k3 : u3.type = T.«COLON») (h4 : Y N.«value_brackets» c4 w4 (nextT w5 u6.type)) (hg : (nextT w5 u6.type) ≠ T.MINUS ∧ (nextT w5 u6.type) ≠ T.LSQB) (h5 : Y N.«value_brackets» c5 w5 u6.type) (k6 : u6.type = T.«_CPP_COMMENT_NL») (k7 : u7.type = T.«RSQB») :
    Y N.«loop» (nd "loop" (c2 :: (c4 :: [c5]))) (u0 :: (u1 :: (w2 ++ (u3 :: (w4 ++ (w5 ++ (u6 :: [u7]))))))) n :=
  Y.node ⟨N.«loop», [T.«LSQB», T.«FOR», N.«loop_array», T.«COLON», N.«value_brackets», N.«value_brackets», T.«_CPP_COMMENT_NL», T.«RSQB»], "loop", false, [(2, false, 0), (4, false, 0), (5, false, 0)], 0⟩ (by decide +kernel) rfl (by decide) (free_plain (by decide) (by decide)) (cs := [tk T.«LSQB» u0.text, tk T.«FOR» u1.text, c2, tk T.«COLON» u3.text, c4, c5, tk T.«_CPP_COMMENT_NL» u6.text, tk T.«RSQB» u7.text]) (by have : YL [T.«LSQB», T.«FOR», N.«loop_array», T.«COLON», N.«value_brackets», N.«value_brackets», T.«_CPP_COMMENT_NL», T.«RSQB»] [tk T.«LSQB» u0.text, tk T.«FOR» u1.text, c2, tk T.«COLON» u3.text, c4, c5, tk T.«_CPP_COMMENT_NL» u6.text, tk T.«RSQB» u7.text] (u0 :: (u1 :: (w2 ++ (u3 :: (w4 ++ (w5 ++ (u6 :: (u7 :: ([]))))))))) n := (.tok k0 (by decide) (.tok k1 (by decide) (.nt (by simpa only [List.append_assoc, List.nil_append, List.append_nil, List.cons_append, nextT_append, nextT_cons, nextT_nil] using h2) (.tok k3 (by decide) (.nt (by simpa only [List.append_assoc, List.nil_append, List.append_nil, List.cons_append, nextT_append, nextT_cons, nextT_nil] using h4) (.nt (by simpa only [List.append_assoc, List.nil_append, List.append_nil, List.cons_append, nextT_append, nextT_cons, nextT_nil] using h5) (.tok k6 (by decide) (.tok k7 (by decide) .nil)) (fun h h' => by first | exact absurd h (by decide) | exact absurd h' (by decide))) (fun _ _ => by simpa only [List.append_assoc, List.nil_append, List.append_nil, List.cons_append, nextT_append, nextT_cons, nextT_nil] using hg))) (fun h h' => by first | exact absurd h (by decide) | exact absurd h' (by decide))))); simpa only [List.append_assoc, List.nil_append, List.append_nil, List.cons_append, nextT_append, nextT_cons, nextT_nil] using this) (by simp only [keepKids', List.flatMap_cons, List.flatMap_nil, List.replicate_zero, List.replicate_succ, List.getElem?_cons_zero, List.getElem?_cons_succ, Bool.false_eq_true, if_true, if_false, List.append_nil, List.nil_append, List.cons_append, List.append_assoc, kidsOf_nd] <;> rfl)

theorem y_113 {n : Nat} {u0 : Tok} {u1 : Tok} {c2 : Tree} {w2 : List Tok} {u3 : Tok} {c4 : Tree} {w4 : List Tok} {u5 : Tok} (k0 : u0.type = T.«LSQB») (k1 : u1.type = T.«FOR») (h2 : Y N.«loop_array» c2 w2 u3.type) (k3 : u3.type = T.«COLON») (h4 : Y N.«value_brackets» c4 w4 u5.type) (k5 : u5.type = T.«RSQB») :
    Y N.«loop» (nd "loop" (c2 :: (Tree.none :: [c4]))) (u0 :: (u1 :: (w2 ++ (u3 :: (w4 ++ [u5]))))) n :=
  Y.node ⟨N.«loop», [T.«LSQB», T.«FOR», N.«loop_array», T.«COLON», N.«value_brackets», T.«RSQB»], "loop", false, [(2, false, 0), (4, false, 1)], 0⟩ (by decide +kernel) rfl (by decide) (free_plain (by decide) (by decide)) (cs := [tk T.«LSQB» u0.text, tk T.«FOR» u1.text, c2, tk T.«COLON» u3.text, c4, tk T.«RSQB» u5.text]) (by have : YL [T.«LSQB», T.«FOR», N.«loop_array», T.«COLON», N.«value_brackets», T.«RSQB»] [tk T.«LSQB» u0.text, tk T.«FOR» u1.text, c2, tk T.«COLON» u3.text, c4, tk T.«RSQB» u5.text] (u0 :: (u1 :: (w2 ++ (u3 :: (w4 ++ (u5 :: ([]))))))) n := (.tok k0 (by decide) (.tok k1 (by decide) (.nt (by simpa only [List.append_assoc, List.nil_append, List.append_nil, List.cons_append, nextT_append, nextT_cons, nextT_nil] using h2) (.tok k3 (by decide) (.nt (by simpa only [List.append_assoc, List.nil_append, List.append_nil, List.cons_append, nextT_append, nextT_cons, nextT_nil] using h4) (.tok k5 (by decide) .nil) (fun h h' => by first | exact absurd h (by decide) | exact absurd h' (by decide)))) (fun h h' => by first | exact absurd h (by decide) | exact absurd h' (by decide))))); simpa only [List.append_assoc, List.nil_append, List.append_nil, List.cons_append, nextT_append, nextT_cons, nextT_nil] using this) (by simp only [keepKids', List.flatMap_cons, List.flatMap_nil, List.replicate_zero, List.replicate_succ, List.getElem?_cons_zero, List.getElem?_cons_succ, Bool.false_eq_true, if_true, if_false, List.append_nil, List.nil_append, List.cons_append, List.append_assoc, kidsOf_nd] <;> rfl)

theorem y_116 {n : Nat} {u0 : Tok} {u1 : Tok} {c2 : Tree} {w2 : List Tok} {u3 : Tok} {c4 : Tree} {w4 : List Tok} {u5 : Tok} {u6 : Tok} (k0 : u0.type = T.«LSQB») (k1 : u1.type = T.«FOR») (h2 : Y N.«loop_array_index» c2 w2 u3.type) (k3 : u3.type = T.«COLON») (h4 : Y N.«value_brackets» c4 w4 u5.type) (k5 : u5.type = T.«_CPP_COMMENT_NL») (k6 : u6.type = T.«RSQB») :
    Y N.«loop» (nd "loop" (c2 :: (Tree.none :: [c4]))) (u0 :: (u1 :: (w2 ++ (u3 :: (w4 ++ (u5 :: [u6])))))) n :=
  Y.node ⟨N.«loop», [T.«LSQB», T.«FOR», N.«loop_array_index», T.«COLON», N.«value_brackets», T.«_CPP_COMMENT_NL», T.«RSQB»], "loop", false, [(2, false, 0), (4, false, 1)], 0⟩ (by decide +kernel) rfl (by decide) (free_plain (by decide) (by decide)) (cs := [tk T.«LSQB» u0.text, tk T.«FOR» u1.text, c2, tk T.«COLON» u3.text, c4, tk T.«_CPP_COMMENT_NL» u5.text, tk T.«RSQB» u6.text]) (by have : YL [T.«LSQB», T.«FOR», N.«loop_array_index», T.«COLON», N.«value_brackets», T.«_CPP_COMMENT_NL», T.«RSQB»] [tk T.«LSQB» u0.text, tk T.«FOR» u1.text, c2, tk T.«COLON» u3.text, c4, tk T.«_CPP_COMMENT_NL» u5.text, tk T.«RSQB» u6.text] (u0 :: (u1 :: (w2 ++ (u3 :: (w4 ++ (u5 :: (u6 :: ([])))))))) n := (.tok k0 (by decide) (.tok k1 (by decide) (.nt (by simpa only [List.append_assoc, List.nil_append, List.append_nil, List.cons_append, nextT_append, nextT_cons, nextT_nil] using h2) (.tok k3 (by decide) (.nt (by simpa only [List.append_assoc, List.nil_append, List.append_nil, List.cons_append, nextT_append, nextT_cons, nextT_nil] using h4) (.tok k5 (by decide) (.tok k6 (by decide) .nil)) (fun h h' => by first | exact absurd h (by decide) | exact absurd h' (by decide)))) (fun h h' => by first | exact absurd h (by decide) | exact absurd h' (by decide))))); simpa only [List.append_assoc, List.nil_append, List.append_nil, List.cons_append, nextT_append, nextT_cons, nextT_nil] using this) (by simp only [keepKids', List.flatMap_cons, List.flatMap_nil, List.replicate_zero, List.replicate_succ, List.getElem?_cons_zero, List.getElem?_cons_succ, Bool.false_eq_true, if_true, if_false, List.append_nil, List.nil_append, List.cons_append, List.append_assoc, kidsOf_nd] <;> rfl)

theorem y_119 {n : Nat} {u0 : Tok} {u1 : Tok} {c2 : Tree} {w2 : List Tok} {u3 : Tok} {c4 : Tree} {w4 : List Tok} {c5 : Tree} {w5 : List Tok} {u6 : Tok} (k0 : u0.type = T.«LSQB») (k1 : u1.type = T.«FOR») (h2 : Y N.«loop_object» c2 w2 u3.type) (k3 : u3.type = T.«COLON») (h4 : Y N.«value_brackets» c4 w4 (nextT w5 u6.type)) (hg : (nextT w5 u6.type) ≠ T.MINUS ∧ (nextT w5 u6.type) ≠ T.LSQB) (h5 : Y N.«value_brackets» c5 w5 u6.type) (k6 : u6.type = T.«RSQB») :
    Y N.«loop» (nd "loop" (c2 :: (c4 :: [c5]))) (u0 :: (u1 :: (w2 ++ (u3 :: (w4 ++ (w5 ++ [u6])))))) n :=
  Y.node ⟨N.«loop», [T.«LSQB», T.«FOR», N.«loop_object», T.«COLON», N.«value_brackets», N.«value_brackets», T.«RSQB»], "loop", false, [(2, false, 0), (4, false, 0), (5, false, 0)], 0⟩ (by decide +kernel) rfl (by decide) (free_plain (by decide) (by decide)) (cs := [tk T.«LSQB» u0.text, tk T.«FOR» u1.text, c2, tk T.«COLON» u3.text, c4, c5, tk T.«RSQB» u6.text]) (by have : YL [T.«LSQB», T.«FOR», N.«loop_object», T.«COLON», N.«value_brackets», N.«value_brackets», T.«RSQB»] [tk T.«LSQB» u0.text, tk T.«FOR» u1.text, c2, tk T.«COLON» u3.text, c4, c5, tk T.«RSQB» u6.text] (u0 :: (u1 :: (w2 ++ (u3 :: (w4 ++ (w5 ++ (u6 :: ([])))))))) n := (.tok k0 (by decide) (.tok k1 (by decide) (.nt (by simpa only [List.append_assoc, List.nil_append, List.append_nil, List.cons_append, nextT_append, nextT_cons, nextT_nil] using h2) (.tok k3 (by decide) (.nt (by simpa only [List.append_assoc, List.nil_append, List.append_nil, List.cons_append, nextT_append, nextT_cons, nextT_nil] using h4) (.nt (by simpa only [List.append_assoc, List.nil_append, List.append_nil, List.cons_append, nextT_append, nextT_cons, nextT_nil] using h5) (.tok k6 (by decide) .nil) (fun h h' => by first | exact absurd h (by decide) | exact absurd h' (by decide))) (fun _ _ => by simpa only [List.append_assoc, List.nil_append, List.append_nil, List.cons_append, nextT_append, nextT_cons, nextT_nil] using hg))) (fun h h' => by first | exact absurd h (by decide) | exact absurd h' (by decide))))); simpa only [List.append_assoc, List.nil_append, List.append_nil, List.cons_append, nextT_append, nextT_cons, nextT_nil] using this) (by simp only [keepKids', List.flatMap_cons, List.flatMap_nil, List.replicate_zero, List.replicate_succ, List.getElem?_cons_zero, List.getElem?_cons_succ, Bool.false_eq_true, if_true, if_false, List.append_nil, List.nil_append, List.cons_append, List.append_assoc, kidsOf_nd] <;> rfl)

theorem y_122 {n : Nat} {u0 : Tok} {u1 : Tok} {c2 : Tree} {w2 : List Tok} (k0 : u0.type = T.«STRING») (k1 : u1.type = T.«IN») (h2 : Y N.«value_brackets» c2 w2 n) (hn : NoInfix n) :
    Y N.«loop_array» (nd "loop_array" (tk T.«STRING» u0.text :: [c2])) (u0 :: (u1 :: w2)) n :=
  Y.node ⟨N.«loop_array», [T.«STRING», T.«IN», N.«value_brackets»], "loop_array", false, [(0, false, 0), (2, false, 0)], 0⟩ (by decide +kernel) rfl (by decide) (free_infix (by decide) hn) (cs := [tk T.«STRING» u0.text, tk T.«IN» u1.text, c2]) (by have : YL [T.«STRING», T.«IN», N.«value_brackets»] [tk T.«STRING» u0.text, tk T.«IN» u1.text, c2] (u0 :: (u1 :: (w2 ++ ([])))) n := (.tok k0 (by decide) (.tok k1 (by decide) (.nt (by simpa only [List.append_assoc, List.nil_append, List.append_nil, List.cons_append, nextT_append, nextT_cons, nextT_nil] using h2) .nil (fun h h' => by first | exact absurd h (by decide) | exact absurd h' (by decide))))); simpa only [List.append_assoc, List.nil_append, List.append_nil, List.cons_append, nextT_append, nextT_cons, nextT_nil] using this) (by simp only [keepKids', List.flatMap_cons, List.flatMap_nil, List.replicate_zero, List.replicate_succ, List.getElem?_cons_zero, List.getElem?_cons_succ, Bool.false_eq_true, if_true, if_false, List.append_nil, List.nil_append, List.cons_append, List.append_assoc, kidsOf_nd] <;> rfl)

theorem y_125 {n : Nat} {u0 : Tok} {u1 : Tok} {u2 : Tok} {c3 : Tree} {w3 : List Tok} {u4 : Tok} {c5 : Tree} {w5 : List Tok} (k0 : u0.type = T.«_CPP_COMMENT_NL») (k1 : u1.type = T.«IF») (k2 : u2.type = T.«LPAR») (h3 : Y N.«value_brackets» c3 w3 u4.type) (k4 : u4.type = T.«RPAR») (h5 : Y N.«value_brackets» c5 w5 n) (hn : NoInfix n) :
    Y N.«deploy_condition» (nd "deploy_condition" (c3 :: [c5])) (u0 :: (u1 :: (u2 :: (w3 ++ (u4 :: w5))))) n :=
  Y.node ⟨N.«deploy_condition», [T.«_CPP_COMMENT_NL», T.«IF», T.«LPAR», N.«value_brackets», T.«RPAR», N.«value_brackets»], "deploy_condition", false, [(3, false, 0), (5, false, 0)], 0⟩ (by decide +kernel) rfl (by decide) (free_infix (by decide) hn) (cs := [tk T.«_CPP_COMMENT_NL» u0.text, tk T.«IF» u1.text, tk T.«LPAR» u2.text, c3, tk T.«RPAR» u4.text, c5]) (by have : YL [T.«_CPP_COMMENT_NL», T.«IF», T.«LPAR», N.«value_brackets», T.«RPAR», N.«value_brackets»] [tk T.«_CPP_COMMENT_NL» u0.text, tk T.«IF» u1.text, tk T.«LPAR» u2.text, c3, tk T.«RPAR» u4.text, c5] (u0 :: (u1 :: (u2 :: (w3 ++ (u4 :: (w5 ++ ([]))))))) n := (.tok k0 (by decide) (.tok k1 (by decide) (.tok k2 (by decide) (.nt (by simpa only [List.append_assoc, List.nil_append, List.append_nil, List.cons_append, nextT_append, nextT_cons, nextT_nil] using h3) (.tok k4 (by decide) (.nt (by simpa only [List.append_assoc, List.nil_append, List.append_nil, List.cons_append, nextT_append, nextT_cons, nextT_nil] using h5) .nil (fun h h' => by first | exact absurd h (by decide) | exact absurd h' (by decide)))) (fun h h' => by first | exact absurd h (by decide) | exact absurd h' (by decide)))))); simpa only [List.append_assoc, List.nil_append, List.append_nil, List.cons_append, nextT_append, nextT_cons, nextT_nil] using this) (by simp only [keepKids', List.flatMap_cons, List.flatMap_nil, List.replicate_zero, List.replicate_succ, List.getElem?_cons_zero, List.getElem?_cons_succ, Bool.false_eq_true, if_true, if_false, List.append_nil, List.nil_append, List.cons_append, List.append_assoc, kidsOf_nd] <;> rfl)

theorem y_128 {n : Nat} {u0 : Tok} (k0 : u0.type = T.«QUOTED_STRING») :
    Y N.«quoted_string» (tk T.«QUOTED_STRING» u0.text) [u0] n :=
  Y.ex ⟨N.«quoted_string», [T.«QUOTED_STRING»], "quoted_string", true, [(0, false, 0)], 0⟩ (by decide +kernel) rfl (by decide) (free_plain (by decide) (by decide)) (cs := [tk T.«QUOTED_STRING» u0.text]) (by have : YL [T.«QUOTED_STRING»] [tk T.«QUOTED_STRING» u0.text] (u0 :: ([])) n := (.tok k0 (by decide) .nil); simpa only [List.append_assoc, List.nil_append, List.append_nil, List.cons_append, nextT_append, nextT_cons, nextT_nil] using this) (by simp only [keepKids', List.flatMap_cons, List.flatMap_nil, List.replicate_zero, List.replicate_succ, List.getElem?_cons_zero, List.getElem?_cons_succ, Bool.false_eq_true, if_true, if_false, List.append_nil, List.nil_append, List.cons_append, List.append_assoc, kidsOf_nd] <;> rfl) rfl

theorem y_131 {n : Nat} {u0 : Tok} {t1 : List Tree} {w1 : List Tok} {u2 : Tok} (k0 : u0.type = T.«LSQB») (h1 : Y N.«__child_resource_plus_3» (nd "__child_resource_plus_3" t1) w1 u2.type) (k2 : u2.type = T.«RSQB») :
    Y N.«array» (nd "array" t1) (u0 :: (w1 ++ [u2])) n :=
  Y.node ⟨N.«array», [T.«LSQB», N.«__child_resource_plus_3», T.«RSQB»], "array", false, [(1, true, 0)], 0⟩ (by decide +kernel) rfl (by decide) (free_plain (by decide) (by decide)) (cs := [tk T.«LSQB» u0.text, nd "__child_resource_plus_3" t1, tk T.«RSQB» u2.text]) (by have : YL [T.«LSQB», N.«__child_resource_plus_3», T.«RSQB»] [tk T.«LSQB» u0.text, nd "__child_resource_plus_3" t1, tk T.«RSQB» u2.text] (u0 :: (w1 ++ (u2 :: ([])))) n := (.tok k0 (by decide) (.nt (by simpa only [List.append_assoc, List.nil_append, List.append_nil, List.cons_append, nextT_append, nextT_cons, nextT_nil] using h1) (.tok k2 (by decide) .nil) (fun h h' => by first | exact absurd h (by decide) | exact absurd h' (by decide)))); simpa only [List.append_assoc, List.nil_append, List.append_nil, List.cons_append, nextT_append, nextT_cons, nextT_nil] using this) (by simp only [keepKids', List.flatMap_cons, List.flatMap_nil, List.replicate_zero, List.replicate_succ, List.getElem?_cons_zero, List.getElem?_cons_succ, Bool.false_eq_true, if_true, if_false, List.append_nil, List.nil_append, List.cons_append, List.append_assoc, kidsOf_nd] <;> rfl)

theorem y_134 {n : Nat} {u0 : Tok} {t1 : List Tree} {w1 : List Tok} {t2 : List Tree} {w2 : List Tok} {u3 : Tok} (k0 : u0.type = T.«LBRACE») (h1 : Y N.«__child_resource_plus_3» (nd "__child_resource_plus_3" t1) w1 (nextT w2 u3.type)) (h2 : Y N.«__object_star_10» (nd "__object_star_10" t2) w2 u3.type) (k3 : u3.type = T.«RBRACE») :
    Y N.«object» (nd "object" (t1 ++ t2)) (u0 :: (w1 ++ (w2 ++ [u3]))) n :=
  Y.node ⟨N.«object», [T.«LBRACE», N.«__child_resource_plus_3», N.«__object_star_10», T.«RBRACE»], "object", false, [(1, true, 0), (2, true, 0)], 0⟩ (by decide +kernel) rfl (by decide) (free_plain (by decide) (by decide)) (cs := [tk T.«LBRACE» u0.text, nd "__child_resource_plus_3" t1, nd "__object_star_10" t2, tk T.«RBRACE» u3.text]) (by have : YL [T.«LBRACE», N.«__child_resource_plus_3», N.«__object_star_10», T.«RBRACE»] [tk T.«LBRACE» u0.text, nd "__child_resource_plus_3" t1, nd "__object_star_10" t2, tk T.«RBRACE» u3.text] (u0 :: (w1 ++ (w2 ++ (u3 :: ([]))))) n := (.tok k0 (by decide) (.nt (by simpa only [List.append_assoc, List.nil_append, List.append_nil, List.cons_append, nextT_append, nextT_cons, nextT_nil] using h1) (.nt (by simpa only [List.append_assoc, List.nil_append, List.append_nil, List.cons_append, nextT_append, nextT_cons, nextT_nil] using h2) (.tok k3 (by decide) .nil) (fun h h' => by first | exact absurd h (by decide) | exact absurd h' (by decide))) (fun h h' => by first | exact absurd h (by decide) | exact absurd h' (by decide)))); simpa only [List.append_assoc, List.nil_append, List.append_nil, List.cons_append, nextT_append, nextT_cons, nextT_nil] using this) (by simp only [keepKids', List.flatMap_cons, List.flatMap_nil, List.replicate_zero, List.replicate_succ, List.getElem?_cons_zero, List.getElem?_cons_succ, Bool.false_eq_true, if_true, if_false, List.append_nil, List.nil_append, List.cons_append, List.append_assoc, kidsOf_nd] <;> rfl)

theorem y_137 {n : Nat} {u0 : Tok} {u1 : Tok} (k0 : u0.type = T.«LBRACE») (k1 : u1.type = T.«RBRACE») :
    Y N.«object» (nd "object" []) (u0 :: [u1]) n :=
  Y.node ⟨N.«object», [T.«LBRACE», T.«RBRACE»], "object", false, [], 0⟩ (by decide +kernel) rfl (by decide) (free_plain (by decide) (by decide)) (cs := [tk T.«LBRACE» u0.text, tk T.«RBRACE» u1.text]) (by have : YL [T.«LBRACE», T.«RBRACE»] [tk T.«LBRACE» u0.text, tk T.«RBRACE» u1.text] (u0 :: (u1 :: ([]))) n := (.tok k0 (by decide) (.tok k1 (by decide) .nil)); simpa only [List.append_assoc, List.nil_append, List.append_nil, List.cons_append, nextT_append, nextT_cons, nextT_nil] using this) (by simp only [keepKids', List.flatMap_cons, List.flatMap_nil, List.replicate_zero, List.replicate_succ, List.getElem?_cons_zero, List.getElem?_cons_succ, Bool.false_eq_true, if_true, if_false, List.append_nil, List.nil_append, List.cons_append, List.append_assoc, kidsOf_nd] <;> rfl)

theorem y_140 {n : Nat} {c0 : Tree} {w0 : List Tok} {u1 : Tok} {c2 : Tree} {w2 : List Tok} {u3 : Tok} (h0 : Y N.«key» c0 w0 u1.type) (k1 : u1.type = T.«COLON») (h2 : Y N.«loop» c2 w2 u3.type) (k3 : u3.type = T.«QMARK») :
    Y N.«pair» (nd "pair" (c0 :: [c2])) (w0 ++ (u1 :: (w2 ++ [u3]))) n :=
  Y.node ⟨N.«pair», [N.«key», T.«COLON», N.«loop», T.«QMARK»], "pair", false, [(0, false, 0), (2, false, 0)], 0⟩ (by decide +kernel) rfl (by decide) (free_plain (by decide) (by decide)) (cs := [c0, tk T.«COLON» u1.text, c2, tk T.«QMARK» u3.text]) (by have : YL [N.«key», T.«COLON», N.«loop», T.«QMARK»] [c0, tk T.«COLON» u1.text, c2, tk T.«QMARK» u3.text] (w0 ++ (u1 :: (w2 ++ (u3 :: ([]))))) n := (.nt (by simpa only [List.append_assoc, List.nil_append, List.append_nil, List.cons_append, nextT_append, nextT_cons, nextT_nil] using h0) (.tok k1 (by decide) (.nt (by simpa only [List.append_assoc, List.nil_append, List.append_nil, List.cons_append, nextT_append, nextT_cons, nextT_nil] using h2) (.tok k3 (by decide) .nil) (fun h h' => by first | exact absurd h (by decide) | exact absurd h' (by decide)))) (fun h h' => by first | exact absurd h (by decide) | exact absurd h' (by decide))); simpa only [List.append_assoc, List.nil_append, List.append_nil, List.cons_append, nextT_append, nextT_cons, nextT_nil] using this) (by simp only [keepKids', List.flatMap_cons, List.flatMap_nil, List.replicate_zero, List.replicate_succ, List.getElem?_cons_zero, List.getElem?_cons_succ, Bool.false_eq_true, if_true, if_false, List.append_nil, List.nil_append, List.cons_append, List.append_assoc, kidsOf_nd] <;> rfl)

theorem y_143 {n : Nat} {c0 : Tree} {w0 : List Tok} (h0 : Y N.«quoted_string» c0 w0 n) :
    Y N.«key» (nd "key" [c0]) w0 n :=
  Y.node ⟨N.«key», [N.«quoted_string»], "key", false, [(0, false, 0)], 0⟩ (by decide +kernel) rfl (by decide) (free_plain (by decide) (by decide)) (cs := [c0]) (by have : YL [N.«quoted_string»] [c0] (w0 ++ ([])) n := (.nt (by simpa only [List.append_assoc, List.nil_append, List.append_nil, List.cons_append, nextT_append, nextT_cons, nextT_nil] using h0) .nil (fun h h' => by first | exact absurd h (by decide) | exact absurd h' (by decide))); simpa only [List.append_assoc, List.nil_append, List.append_nil, List.cons_append, nextT_append, nextT_cons, nextT_nil] using this) (by simp only [keepKids', List.flatMap_cons, List.flatMap_nil, List.replicate_zero, List.replicate_succ, List.getElem?_cons_zero, List.getElem?_cons_succ, Bool.false_eq_true, if_true, if_false, List.append_nil, List.nil_append, List.cons_append, List.append_assoc, kidsOf_nd] <;> rfl)

theorem y_146 {n : Nat} {u0 : Tok} {u1 : Tok} {u2 : Tok} {u3 : Tok} {c4 : Tree} {w4 : List Tok} {u5 : Tok} {u6 : Tok} (k0 : u0.type = T.«AT») (k1 : u1.type = T.«__ANON_2») (k2 : u2.type = T.«LPAR») (k3 : u3.type = T.«_CPP_COMMENT_NL») (h4 : Y N.«value_brackets» c4 w4 u5.type) (k5 : u5.type = T.«_CPP_COMMENT_NL») (k6 : u6.type = T.«RPAR») :
    Y N.«decorator» (nd "decorator" (tk T.«__ANON_2» u1.text :: [c4])) (u0 :: (u1 :: (u2 :: (u3 :: (w4 ++ (u5 :: [u6])))))) n :=
  Y.node ⟨N.«decorator», [T.«AT», T.«__ANON_2», T.«LPAR», T.«_CPP_COMMENT_NL», N.«value_brackets», T.«_CPP_COMMENT_NL», T.«RPAR»], "decorator", false, [(1, false, 0), (4, false, 0)], 0⟩ (by decide +kernel) rfl (by decide) (free_plain (by decide) (by decide)) (cs := [tk T.«AT» u0.text, tk T.«__ANON_2» u1.text, tk T.«LPAR» u2.text, tk T.«_CPP_COMMENT_NL» u3.text, c4, tk T.«_CPP_COMMENT_NL» u5.text, tk T.«RPAR» u6.text]) (by have : YL [T.«AT», T.«__ANON_2», T.«LPAR», T.«_CPP_COMMENT_NL», N.«value_brackets», T.«_CPP_COMMENT_NL», T.«RPAR»] [tk T.«AT» u0.text, tk T.«__ANON_2» u1.text, tk T.«LPAR» u2.text, tk T.«_CPP_COMMENT_NL» u3.text, c4, tk T.«_CPP_COMMENT_NL» u5.text, tk T.«RPAR» u6.text] (u0 :: (u1 :: (u2 :: (u3 :: (w4 ++ (u5 :: (u6 :: ([])))))))) n := (.tok k0 (by decide) (.tok k1 (by decide) (.tok k2 (by decide) (.tok k3 (by decide) (.nt (by simpa only [List.append_assoc, List.nil_append, List.append_nil, List.cons_append, nextT_append, nextT_cons, nextT_nil] using h4) (.tok k5 (by decide) (.tok k6 (by decide) .nil)) (fun h h' => by first | exact absurd h (by decide) | exact absurd h' (by decide))))))); simpa only [List.append_assoc, List.nil_append, List.append_nil, List.cons_append, nextT_append, nextT_cons, nextT_nil] using this) (by simp only [keepKids', List.flatMap_cons, List.flatMap_nil, List.replicate_zero, List.replicate_succ, List.getElem?_cons_zero, List.getElem?_cons_succ, Bool.false_eq_true, if_true, if_false, List.append_nil, List.nil_append, List.cons_append, List.append_assoc, kidsOf_nd] <;> rfl)

theorem y_149 {n : Nat} {u0 : Tok} {u1 : Tok} {u2 : Tok} {u3 : Tok} {c4 : Tree} {w4 : List Tok} {u5 : Tok} {u6 : Tok} {u7 : Tok} {u8 : Tok} {u9 : Tok} (k0 : u0.type = T.«AT») (k1 : u1.type = T.«__ANON_2») (k2 : u2.type = T.«LPAR») (k3 : u3.type = T.«_CPP_COMMENT_NL») (h4 : Y N.«value_brackets» c4 w4 u5.type) (k5 : u5.type = T.«_CPP_COMMENT_NL») (k6 : u6.type = T.«RPAR») (k7 : u7.type = T.«_CPP_COMMENT_NL») (k8 : u8.type = T.«_CPP_COMMENT_NL») (k9 : u9.type = T.«_CPP_COMMENT_NL») :
    Y N.«decorator» (nd "decorator" (tk T.«__ANON_2» u1.text :: [c4])) (u0 :: (u1 :: (u2 :: (u3 :: (w4 ++ (u5 :: (u6 :: (u7 :: (u8 :: [u9]))))))))) n :=
  Y.node ⟨N.«decorator», [T.«AT», T.«__ANON_2», T.«LPAR», T.«_CPP_COMMENT_NL», N.«value_brackets», T.«_CPP_COMMENT_NL», T.«RPAR», T.«_CPP_COMMENT_NL», T.«_CPP_COMMENT_NL», T.«_CPP_COMMENT_NL»], "decorator", false, [(1, false, 0), (4, false, 0)], 0⟩ (by decide +kernel) rfl (by decide) (free_plain (by decide) (by decide)) (cs := [tk T.«AT» u0.text, tk T.«__ANON_2» u1.text, tk T.«LPAR» u2.text, tk T.«_CPP_COMMENT_NL» u3.text, c4, tk T.«_CPP_COMMENT_NL» u5.text, tk T.«RPAR» u6.text, tk T.«_CPP_COMMENT_NL» u7.text, tk T.«_CPP_COMMENT_NL» u8.text, tk T.«_CPP_COMMENT_NL» u9.text]) (by have : YL [T.«AT», T.«__ANON_2», T.«LPAR», T.«_CPP_COMMENT_NL», N.«value_brackets», T.«_CPP_COMMENT_NL», T.«RPAR», T.«_CPP_COMMENT_NL», T.«_CPP_COMMENT_NL», T.«_CPP_COMMENT_NL»] [tk T.«AT» u0.text, tk T.«__ANON_2» u1.text, tk T.«LPAR» u2.text, tk T.«_CPP_COMMENT_NL» u3.text, c4, tk T.«_CPP_COMMENT_NL» u5.text, tk T.«RPAR» u6.text, tk T.«_CPP_COMMENT_NL» u7.text, tk T.«_CPP_COMMENT_NL» u8.text, tk T.«_CPP_COMMENT_NL» u9.text] (u0 :: (u1 :: (u2 :: (u3 :: (w4 ++ (u5 :: (u6 :: (u7 :: (u8 :: (u9 :: ([]))))))))))) n := (.tok k0 (by decide) (.tok k1 (by decide) (.tok k2 (by decide) (.tok k3 (by decide) (.nt (by simpa only [List.append_assoc, List.nil_append, List.append_nil, List.cons_append, nextT_append, nextT_cons, nextT_nil] using h4) (.tok k5 (by decide) (.tok k6 (by decide) (.tok k7 (by decide) (.tok k8 (by decide) (.tok k9 (by decide) .nil))))) (fun h h' => by first | exact absurd h (by decide) | exact absurd h' (by decide))))))); simpa only [List.append_assoc, List.nil_append, List.append_nil, List.cons_append, nextT_append, nextT_cons, nextT_nil] using this) (by simp only [keepKids', List.flatMap_cons, List.flatMap_nil, List.replicate_zero, List.replicate_succ, List.getElem?_cons_zero, List.getElem?_cons_succ, Bool.false_eq_true, if_true, if_false, List.append_nil, List.nil_append, List.cons_append, List.append_assoc, kidsOf_nd] <;> rfl)

theorem y_152 {n : Nat} {u0 : Tok} {u1 : Tok} {u2 : Tok} {u3 : Tok} {c4 : Tree} {w4 : List Tok} {u5 : Tok} {u6 : Tok} {u7 : Tok} {u8 : Tok} {u9 : Tok} {u10 : Tok} {u11 : Tok} {u12 : Tok} (k0 : u0.type = T.«AT») (k1 : u1.type = T.«__ANON_2») (k2 : u2.type = T.«LPAR») (k3 : u3.type = T.«_CPP_COMMENT_NL») (h4 : Y N.«value_brackets» c4 w4 u5.type) (k5 : u5.type = T.«_CPP_COMMENT_NL») (k6 : u6.type = T.«RPAR») (k7 : u7.type = T.«_CPP_COMMENT_NL») (k8 : u8.type = T.«_CPP_COMMENT_NL») (k9 : u9.type = T.«_CPP_COMMENT_NL») (k10 : u10.type = T.«_CPP_COMMENT_NL») (k11 : u11.type = T.«_CPP_COMMENT_NL») (k12 : u12.type = T.«_CPP_COMMENT_NL») :
    Y N.«decorator» (nd "decorator" (tk T.«__ANON_2» u1.text :: [c4])) (u0 :: (u1 :: (u2 :: (u3 :: (w4 ++ (u5 :: (u6 :: (u7 :: (u8 :: (u9 :: (u10 :: (u11 :: [u12])))))))))))) n :=
  Y.node ⟨N.«decorator», [T.«AT», T.«__ANON_2», T.«LPAR», T.«_CPP_COMMENT_NL», N.«value_brackets», T.«_CPP_COMMENT_NL», T.«RPAR», T.«_CPP_COMMENT_NL», T.«_CPP_COMMENT_NL», T.«_CPP_COMMENT_NL», T.«_CPP_COMMENT_NL», T.«_CPP_COMMENT_NL», T.«_CPP_COMMENT_NL»], "decorator", false, [(1, false, 0), (4, false, 0)], 0⟩ (by decide +kernel) rfl (by decide) (free_plain (by decide) (by decide)) (cs := [tk T.«AT» u0.text, tk T.«__ANON_2» u1.text, tk T.«LPAR» u2.text, tk T.«_CPP_COMMENT_NL» u3.text, c4, tk T.«_CPP_COMMENT_NL» u5.text, tk T.«RPAR» u6.text, tk T.«_CPP_COMMENT_NL» u7.text, tk T.«_CPP_COMMENT_NL» u8.text, tk T.«_CPP_COMMENT_NL» u9.text, tk T.«_CPP_COMMENT_NL» u10.text, tk T.«_CPP_COMMENT_NL» u11.text, tk T.«_CPP_COMMENT_NL» u12.text]) (by have : YL [T.«AT», T.«__ANON_2», T.«LPAR», T.«_CPP_COMMENT_NL», N.«value_brackets», T.«_CPP_COMMENT_NL», T.«RPAR», T.«_CPP_COMMENT_NL», T.«_CPP_COMMENT_NL», T.«_CPP_COMMENT_NL», T.«_CPP_COMMENT_NL», T.«_CPP_COMMENT_NL», T.«_CPP_COMMENT_NL»] [tk T.«AT» u0.text, tk T.«__ANON_2» u1.text, tk T.«LPAR» u2.text, tk T.«_CPP_COMMENT_NL» u3.text, c4, tk T.«_CPP_COMMENT_NL» u5.text, tk T.«RPAR» u6.text, tk T.«_CPP_COMMENT_NL» u7.text, tk T.«_CPP_COMMENT_NL» u8.text, tk T.«_CPP_COMMENT_NL» u9.text, tk T.«_CPP_COMMENT_NL» u10.text, tk T.«_CPP_COMMENT_NL» u11.text, tk T.«_CPP_COMMENT_NL» u12.text] (u0 :: (u1 :: (u2 :: (u3 :: (w4 ++ (u5 :: (u6 :: (u7 :: (u8 :: (u9 :: (u10 :: (u11 :: (u12 :: ([])))))))))))))) n := (.tok k0 (by decide) (.tok k1 (by decide) (.tok k2 (by decide) (.tok k3 (by decide) (.nt (by simpa only [List.append_assoc, List.nil_append, List.append_nil, List.cons_append, nextT_append, nextT_cons, nextT_nil] using h4) (.tok k5 (by decide) (.tok k6 (by decide) (.tok k7 (by decide) (.tok k8 (by decide) (.tok k9 (by decide) (.tok k10 (by decide) (.tok k11 (by decide) (.tok k12 (by decide) .nil)))))))) (fun h h' => by first | exact absurd h (by decide) | exact absurd h' (by decide))))))); simpa only [List.append_assoc, List.nil_append, List.append_nil, List.cons_append, nextT_append, nextT_cons, nextT_nil] using this) (by simp only [keepKids', List.flatMap_cons, List.flatMap_nil, List.replicate_zero, List.replicate_succ, List.getElem?_cons_zero, List.getElem?_cons_succ, Bool.false_eq_true, if_true, if_false, List.append_nil, List.nil_append, List.cons_append, List.append_assoc, kidsOf_nd] <;> rfl)

theorem y_155 {n : Nat} {u0 : Tok} {u1 : Tok} {u2 : Tok} {u3 : Tok} {c4 : Tree} {w4 : List Tok} {u5 : Tok} {u6 : Tok} {u7 : Tok} {u8 : Tok} {u9 : Tok} {u10 : Tok} {u11 : Tok} {u12 : Tok} {u13 : Tok} {u14 : Tok} {u15 : Tok} (k0 : u0.type = T.«AT») (k1 : u1.type = T.«__ANON_2») (k2 : u2.type = T.«LPAR») (k3 : u3.type = T.«_CPP_COMMENT_NL») (h4 : Y N.«value_brackets» c4 w4 u5.type) (k5 : u5.type = T.«_CPP_COMMENT_NL») (k6 : u6.type = T.«RPAR») (k7 : u7.type = T.«_CPP_COMMENT_NL») (k8 : u8.type = T.«_CPP_COMMENT_NL») (k9 : u9.type = T.«_CPP_COMMENT_NL») (k10 : u10.type = T.«_CPP_COMMENT_NL») (k11 : u11.type = T.«_CPP_COMMENT_NL») (k12 : u12.type = T.«_CPP_COMMENT_NL») (k13 : u13.type = T.«_CPP_COMMENT_NL») (k14 : u14.type = T.«_CPP_COMMENT_NL») (k15 : u15.type = T.«_CPP_COMMENT_NL») :
    Y N.«decorator» (nd "decorator" (tk T.«__ANON_2» u1.text :: [c4])) (u0 :: (u1 :: (u2 :: (u3 :: (w4 ++ (u5 :: (u6 :: (u7 :: (u8 :: (u9 :: (u10 :: (u11 :: (u12 :: (u13 :: (u14 :: [u15]))))))))))))))) n :=
  Y.node ⟨N.«decorator», [T.«AT», T.«__ANON_2», T.«LPAR», T.«_CPP_COMMENT_NL», N.«value_brackets», T.«_CPP_COMMENT_NL», T.«RPAR», T.«_CPP_COMMENT_NL», T.«_CPP_COMMENT_NL», T.«_CPP_COMMENT_NL», T.«_CPP_COMMENT_NL», T.«_CPP_COMMENT_NL», T.«_CPP_COMMENT_NL», T.«_CPP_COMMENT_NL», T.«_CPP_COMMENT_NL», T.«_CPP_COMMENT_NL»], "decorator", false, [(1, false, 0), (4, false, 0)], 0⟩ (by decide +kernel) rfl (by decide) (free_plain (by decide) (by decide)) (cs := [tk T.«AT» u0.text, tk T.«__ANON_2» u1.text, tk T.«LPAR» u2.text, tk T.«_CPP_COMMENT_NL» u3.text, c4, tk T.«_CPP_COMMENT_NL» u5.text, tk T.«RPAR» u6.text, tk T.«_CPP_COMMENT_NL» u7.text, tk T.«_CPP_COMMENT_NL» u8.text, tk T.«_CPP_COMMENT_NL» u9.text, tk T.«_CPP_COMMENT_NL» u10.text, tk T.«_CPP_COMMENT_NL» u11.text, tk T.«_CPP_COMMENT_NL» u12.text, tk T.«_CPP_COMMENT_NL» u13.text, tk T.«_CPP_COMMENT_NL» u14.text, tk T.«_CPP_COMMENT_NL» u15.text]) (by have : YL [T.«AT», T.«__ANON_2», T.«LPAR», T.«_CPP_COMMENT_NL», N.«value_brackets», T.«_CPP_COMMENT_NL», T.«RPAR», T.«_CPP_COMMENT_NL», T.«_CPP_COMMENT_NL», T.«_CPP_COMMENT_NL», T.«_CPP_COMMENT_NL», T.«_CPP_COMMENT_NL», T.«_CPP_COMMENT_NL», T.«_CPP_COMMENT_NL», T.«_CPP_COMMENT_NL», T.«_CPP_COMMENT_NL»] [tk T.«AT» u0.text, tk T.«__ANON_2» u1.text, tk T.«LPAR» u2.text, tk T.«_CPP_COMMENT_NL» u3.text, c4, tk T.«_CPP_COMMENT_NL» u5.text, tk T.«RPAR» u6.text, tk T.«_CPP_COMMENT_NL» u7.text, tk T.«_CPP_COMMENT_NL» u8.text, tk T.«_CPP_COMMENT_NL» u9.text, tk T.«_CPP_COMMENT_NL» u10.text, tk T.«_CPP_COMMENT_NL» u11.text, tk T.«_CPP_COMMENT_NL» u12.text, tk T.«_CPP_COMMENT_NL» u13.text, tk T.«_CPP_COMMENT_NL» u14.text, tk T.«_CPP_COMMENT_NL» u15.text] (u0 :: (u1 :: (u2 :: (u3 :: (w4 ++ (u5 :: (u6 :: (u7 :: (u8 :: (u9 :: (u10 :: (u11 :: (u12 :: (u13 :: (u14 :: (u15 :: ([]))))))))))))))))) n := (.tok k0 (by decide) (.tok k1 (by decide) (.tok k2 (by decide) (.tok k3 (by decide) (.nt (by simpa only [List.append_assoc, List.nil_append, List.append_nil, List.cons_append, nextT_append, nextT_cons, nextT_nil] using h4) (.tok k5 (by decide) (.tok k6 (by decide) (.tok k7 (by decide) (.tok k8 (by decide) (.tok k9 (by decide) (.tok k10 (by decide) (.tok k11 (by decide) (.tok k12 (by decide) (.tok k13 (by decide) (.tok k14 (by decide) (.tok k15 (by decide) .nil))))))))))) (fun h h' => by first | exact absurd h (by decide) | exact absurd h' (by decide))))))); simpa only [List.append_assoc, List.nil_append, List.append_nil, List.cons_append, nextT_append, nextT_cons, nextT_nil] using this) (by simp only [keepKids', List.flatMap_cons, List.flatMap_nil, List.replicate_zero, List.replicate_succ, List.getElem?_cons_zero, List.getElem?_cons_succ, Bool.false_eq_true, if_true, if_false, List.append_nil, List.nil_append, List.cons_append, List.append_assoc, kidsOf_nd] <;> rfl)

theorem y_158 {n : Nat} {u0 : Tok} {u1 : Tok} {u2 : Tok} {u3 : Tok} {c4 : Tree} {w4 : List Tok} {u5 : Tok} {u6 : Tok} (k0 : u0.type = T.«AT») (k1 : u1.type = T.«__ANON_2») (k2 : u2.type = T.«LPAR») (k3 : u3.type = T.«_CPP_COMMENT_NL») (h4 : Y N.«value_brackets» c4 w4 u5.type) (k5 : u5.type = T.«RPAR») (k6 : u6.type = T.«_CPP_COMMENT_NL») :
    Y N.«decorator» (nd "decorator" (tk T.«__ANON_2» u1.text :: [c4])) (u0 :: (u1 :: (u2 :: (u3 :: (w4 ++ (u5 :: [u6])))))) n :=
  Y.node ⟨N.«decorator», [T.«AT», T.«__ANON_2», T.«LPAR», T.«_CPP_COMMENT_NL», N.«value_brackets», T.«RPAR», T.«_CPP_COMMENT_NL»], "decorator", false, [(1, false, 0), (4, false, 0)], 0⟩ (by decide +kernel) rfl (by decide) (free_plain (by decide) (by decide)) (cs := [tk T.«AT» u0.text, tk T.«__ANON_2» u1.text, tk T.«LPAR» u2.text, tk T.«_CPP_COMMENT_NL» u3.text, c4, tk T.«RPAR» u5.text, tk T.«_CPP_COMMENT_NL» u6.text]) (by have : YL [T.«AT», T.«__ANON_2», T.«LPAR», T.«_CPP_COMMENT_NL», N.«value_brackets», T.«RPAR», T.«_CPP_COMMENT_NL»] [tk T.«AT» u0.text, tk T.«__ANON_2» u1.text, tk T.«LPAR» u2.text, tk T.«_CPP_COMMENT_NL» u3.text, c4, tk T.«RPAR» u5.text, tk T.«_CPP_COMMENT_NL» u6.text] (u0 :: (u1 :: (u2 :: (u3 :: (w4 ++ (u5 :: (u6 :: ([])))))))) n := (.tok k0 (by decide) (.tok k1 (by decide) (.tok k2 (by decide) (.tok k3 (by decide) (.nt (by simpa only [List.append_assoc, List.nil_append, List.append_nil, List.cons_append, nextT_append, nextT_cons, nextT_nil] using h4) (.tok k5 (by decide) (.tok k6 (by decide) .nil)) (fun h h' => by first | exact absurd h (by decide) | exact absurd h' (by decide))))))); simpa only [List.append_assoc, List.nil_append, List.append_nil, List.cons_append, nextT_append, nextT_cons, nextT_nil] using this) (by simp only [keepKids', List.flatMap_cons, List.flatMap_nil, List.replicate_zero, List.replicate_succ, List.getElem?_cons_zero, List.getElem?_cons_succ, Bool.false_eq_true, if_true, if_false, List.append_nil, List.nil_append, List.cons_append, List.append_assoc, kidsOf_nd] <;> rfl)

theorem y_161 {n : Nat} {u0 : Tok} {u1 : Tok} {u2 : Tok} {u3 : Tok} {c4 : Tree} {w4 : List Tok} {u5 : Tok} {u6 : Tok} {u7 : Tok} {u8 : Tok} {u9 : Tok} (k0 : u0.type = T.«AT») (k1 : u1.type = T.«__ANON_2») (k2 : u2.type = T.«LPAR») (k3 : u3.type = T.«_CPP_COMMENT_NL») (h4 : Y N.«value_brackets» c4 w4 u5.type) (k5 : u5.type = T.«RPAR») (k6 : u6.type = T.«_CPP_COMMENT_NL») (k7 : u7.type = T.«_CPP_COMMENT_NL») (k8 : u8.type = T.«_CPP_COMMENT_NL») (k9 : u9.type = T.«_CPP_COMMENT_NL») :
    Y N.«decorator» (nd "decorator" (tk T.«__ANON_2» u1.text :: [c4])) (u0 :: (u1 :: (u2 :: (u3 :: (w4 ++ (u5 :: (u6 :: (u7 :: (u8 :: [u9]))))))))) n :=
  Y.node ⟨N.«decorator», [T.«AT», T.«__ANON_2», T.«LPAR», T.«_CPP_COMMENT_NL», N.«value_brackets», T.«RPAR», T.«_CPP_COMMENT_NL», T.«_CPP_COMMENT_NL», T.«_CPP_COMMENT_NL», T.«_CPP_COMMENT_NL»], "decorator", false, [(1, false, 0), (4, false, 0)], 0⟩ (by decide +kernel) rfl (by decide) (free_plain (by decide) (by decide)) (cs := [tk T.«AT» u0.text, tk T.«__ANON_2» u1.text, tk T.«LPAR» u2.text, tk T.«_CPP_COMMENT_NL» u3.text, c4, tk T.«RPAR» u5.text, tk T.«_CPP_COMMENT_NL» u6.text, tk T.«_CPP_COMMENT_NL» u7.text, tk T.«_CPP_COMMENT_NL» u8.text, tk T.«_CPP_COMMENT_NL» u9.text]) (by have : YL [T.«AT», T.«__ANON_2», T.«LPAR», T.«_CPP_COMMENT_NL», N.«value_brackets», T.«RPAR», T.«_CPP_COMMENT_NL», T.«_CPP_COMMENT_NL», T.«_CPP_COMMENT_NL», T.«_CPP_COMMENT_NL»] [tk T.«AT» u0.text, tk T.«__ANON_2» u1.text, tk T.«LPAR» u2.text, tk T.«_CPP_COMMENT_NL» u3.text, c4, tk T.«RPAR» u5.text, tk T.«_CPP_COMMENT_NL» u6.text, tk T.«_CPP_COMMENT_NL» u7.text, tk T.«_CPP_COMMENT_NL» u8.text, tk T.«_CPP_COMMENT_NL» u9.text] (u0 :: (u1 :: (u2 :: (u3 :: (w4 ++ (u5 :: (u6 :: (u7 :: (u8 :: (u9 :: ([]))))))))))) n := (.tok k0 (by decide) (.tok k1 (by decide) (.tok k2 (by decide) (.tok k3 (by decide) (.nt (by simpa only [List.append_assoc, List.nil_append, List.append_nil, List.cons_append, nextT_append, nextT_cons, nextT_nil] using h4) (.tok k5 (by decide) (.tok k6 (by decide) (.tok k7 (by decide) (.tok k8 (by decide) (.tok k9 (by decide) .nil))))) (fun h h' => by first | exact absurd h (by decide) | exact absurd h' (by decide))))))); simpa only [List.append_assoc, List.nil_append, List.append_nil, List.cons_append, nextT_append, nextT_cons, nextT_nil] using this) (by simp only [keepKids', List.flatMap_cons, List.flatMap_nil, List.replicate_zero, List.replicate_succ, List.getElem?_cons_zero, List.getElem?_cons_succ, Bool.false_eq_true, if_true, if_false, List.append_nil, List.nil_append, List.cons_append, List.append_assoc, kidsOf_nd] <;> rfl)

theorem y_164 {n : Nat} {u0 : Tok} {u1 : Tok} {u2 : Tok} {u3 : Tok} {c4 : Tree} {w4 : List Tok} {u5 : Tok} {u6 : Tok} {u7 : Tok} {u8 : Tok} {u9 : Tok} {u10 : Tok} {u11 : Tok} {u12 : Tok} (k0 : u0.type = T.«AT») (k1 : u1.type = T.«__ANON_2») (k2 : u2.type = T.«LPAR») (k3 : u3.type = T.«_CPP_COMMENT_NL») (h4 : Y N.«value_brackets» c4 w4 u5.type) (k5 : u5.type = T.«RPAR») (k6 : u6.type = T.«_CPP_COMMENT_NL») (k7 : u7.type = T.«_CPP_COMMENT_NL») (k8 : u8.type = T.«_CPP_COMMENT_NL») (k9 : u9.type = T.«_CPP_COMMENT_NL») (k10 : u10.type = T.«_CPP_COMMENT_NL») (k11 : u11.type = T.«_CPP_COMMENT_NL») (k12 : u12.type = T.«_CPP_COMMENT_NL») :
    Y N.«decorator» (nd "decorator" (tk T.«__ANON_2» u1.text :: [c4])) (u0 :: (u1 :: (u2 :: (u3 :: (w4 ++ (u5 :: (u6 :: (u7 :: (u8 :: (u9 :: (u10 :: (u11 :: [u12])))))))))))) n :=
  Y.node ⟨N.«decorator», [T.«AT», T.«__ANON_2», T.«LPAR», T.«_CPP_COMMENT_NL», N.«value_brackets», T.«RPAR», T.«_CPP_COMMENT_NL», T.«_CPP_COMMENT_NL», T.«_CPP_COMMENT_NL», T.«_CPP_COMMENT_NL», T.«_CPP_COMMENT_NL», T.«_CPP_COMMENT_NL», T.«_CPP_COMMENT_NL»], "decorator", false, [(1, false, 0), (4, false, 0)], 0⟩ (by decide +kernel) rfl (by decide) (free_plain (by decide) (by decide)) (cs := [tk T.«AT» u0.text, tk T.«__ANON_2» u1.text, tk T.«LPAR» u2.text, tk T.«_CPP_COMMENT_NL» u3.text, c4, tk T.«RPAR» u5.text, tk T.«_CPP_COMMENT_NL» u6.text, tk T.«_CPP_COMMENT_NL» u7.text, tk T.«_CPP_COMMENT_NL» u8.text, tk T.«_CPP_COMMENT_NL» u9.text, tk T.«_CPP_COMMENT_NL» u10.text, tk T.«_CPP_COMMENT_NL» u11.text, tk T.«_CPP_COMMENT_NL» u12.text]) (by have : YL [T.«AT», T.«__ANON_2», T.«LPAR», T.«_CPP_COMMENT_NL», N.«value_brackets», T.«RPAR», T.«_CPP_COMMENT_NL», T.«_CPP_COMMENT_NL», T.«_CPP_COMMENT_NL», T.«_CPP_COMMENT_NL», T.«_CPP_COMMENT_NL», T.«_CPP_COMMENT_NL», T.«_CPP_COMMENT_NL»] [tk T.«AT» u0.text, tk T.«__ANON_2» u1.text, tk T.«LPAR» u2.text, tk T.«_CPP_COMMENT_NL» u3.text, c4, tk T.«RPAR» u5.text, tk T.«_CPP_COMMENT_NL» u6.text, tk T.«_CPP_COMMENT_NL» u7.text, tk T.«_CPP_COMMENT_NL» u8.text, tk T.«_CPP_COMMENT_NL» u9.text, tk T.«_CPP_COMMENT_NL» u10.text, tk T.«_CPP_COMMENT_NL» u11.text, tk T.«_CPP_COMMENT_NL» u12.text] (u0 :: (u1 :: (u2 :: (u3 :: (w4 ++ (u5 :: (u6 :: (u7 :: (u8 :: (u9 :: (u10 :: (u11 :: (u12 :: ([])))))))))))))) n := (.tok k0 (by decide) (.tok k1 (by decide) (.tok k2 (by decide) (.tok k3 (by decide) (.nt (by simpa only [List.append_assoc, List.nil_append, List.append_nil, List.cons_append, nextT_append, nextT_cons, nextT_nil] using h4) (.tok k5 (by decide) (.tok k6 (by decide) (.tok k7 (by decide) (.tok k8 (by decide) (.tok k9 (by decide) (.tok k10 (by decide) (.tok k11 (by decide) (.tok k12 (by decide) .nil)))))))) (fun h h' => by first | exact absurd h (by decide) | exact absurd h' (by decide))))))); simpa only [List.append_assoc, List.nil_append, List.append_nil, List.cons_append, nextT_append, nextT_cons, nextT_nil] using this) (by simp only [keepKids', List.flatMap_cons, List.flatMap_nil, List.replicate_zero, List.replicate_succ, List.getElem?_cons_zero, List.getElem?_cons_succ, Bool.false_eq_true, if_true, if_false, List.append_nil, List.nil_append, List.cons_append, List.append_assoc, kidsOf_nd] <;> rfl)

theorem y_167 {n : Nat} {u0 : Tok} {u1 : Tok} {u2 : Tok} {u3 : Tok} {c4 : Tree} {w4 : List Tok} {u5 : Tok} {u6 : Tok} {u7 : Tok} {u8 : Tok} {u9 : Tok} {u10 : Tok} {u11 : Tok} {u12 : Tok} {u13 : Tok} {u14 : Tok} {u15 : Tok} (k0 : u0.type = T.«AT») (k1 : u1.type = T.«__ANON_2») (k2 : u2.type = T.«LPAR») (k3 : u3.type = T.«_CPP_COMMENT_NL») (h4 : Y N.«value_brackets» c4 w4 u5.type) (k5 : u5.type = T.«RPAR») (k6 : u6.type = T.«_CPP_COMMENT_NL») (k7 : u7.type = T.«_CPP_COMMENT_NL») (k8 : u8.type = T.«_CPP_COMMENT_NL») (k9 : u9.type = T.«_CPP_COMMENT_NL») (k10 : u10.type = T.«_CPP_COMMENT_NL») (k11 : u11.type = T.«_CPP_COMMENT_NL») (k12 : u12.type = T.«_CPP_COMMENT_NL») (k13 : u13.type = T.«_CPP_COMMENT_NL») (k14 : u14.type = T.«_CPP_COMMENT_NL») (k15 : u15.type = T.«_CPP_COMMENT_NL») :
    Y N.«decorator» (nd "decorator" (tk T.«__ANON_2» u1.text :: [c4])) (u0 :: (u1 :: (u2 :: (u3 :: (w4 ++ (u5 :: (u6 :: (u7 :: (u8 :: (u9 :: (u10 :: (u11 :: (u12 :: (u13 :: (u14 :: [u15]))))))))))))))) n :=
  Y.node ⟨N.«decorator», [T.«AT», T.«__ANON_2», T.«LPAR», T.«_CPP_COMMENT_NL», N.«value_brackets», T.«RPAR», T.«_CPP_COMMENT_NL», T.«_CPP_COMMENT_NL», T.«_CPP_COMMENT_NL», T.«_CPP_COMMENT_NL», T.«_CPP_COMMENT_NL», T.«_CPP_COMMENT_NL», T.«_CPP_COMMENT_NL», T.«_CPP_COMMENT_NL», T.«_CPP_COMMENT_NL», T.«_CPP_COMMENT_NL»], "decorator", false, [(1, false, 0), (4, false, 0)], 0⟩ (by decide +kernel) rfl (by decide) (free_plain (by decide) (by decide)) (cs := [tk T.«AT» u0.text, tk T.«__ANON_2» u1.text, tk T.«LPAR» u2.text, tk T.«_CPP_COMMENT_NL» u3.text, c4, tk T.«RPAR» u5.text, tk T.«_CPP_COMMENT_NL» u6.text, tk T.«_CPP_COMMENT_NL» u7.text, tk T.«_CPP_COMMENT_NL» u8.text, tk T.«_CPP_COMMENT_NL» u9.text, tk T.«_CPP_COMMENT_NL» u10.text, tk T.«_CPP_COMMENT_NL» u11.text, tk T.«_CPP_COMMENT_NL» u12.text, tk T.«_CPP_COMMENT_NL» u13.text, tk T.«_CPP_COMMENT_NL» u14.text, tk T.«_CPP_COMMENT_NL» u15.text]) (by have : YL [T.«AT», T.«__ANON_2», T.«LPAR», T.«_CPP_COMMENT_NL», N.«value_brackets», T.«RPAR», T.«_CPP_COMMENT_NL», T.«_CPP_COMMENT_NL», T.«_CPP_COMMENT_NL», T.«_CPP_COMMENT_NL», T.«_CPP_COMMENT_NL», T.«_CPP_COMMENT_NL», T.«_CPP_COMMENT_NL», T.«_CPP_COMMENT_NL», T.«_CPP_COMMENT_NL», T.«_CPP_COMMENT_NL»] [tk T.«AT» u0.text, tk T.«__ANON_2» u1.text, tk T.«LPAR» u2.text, tk T.«_CPP_COMMENT_NL» u3.text, c4, tk T.«RPAR» u5.text, tk T.«_CPP_COMMENT_NL» u6.text, tk T.«_CPP_COMMENT_NL» u7.text, tk T.«_CPP_COMMENT_NL» u8.text, tk T.«_CPP_COMMENT_NL» u9.text, tk T.«_CPP_COMMENT_NL» u10.text, tk T.«_CPP_COMMENT_NL» u11.text, tk T.«_CPP_COMMENT_NL» u12.text, tk T.«_CPP_COMMENT_NL» u13.text, tk T.«_CPP_COMMENT_NL» u14.text, tk T.«_CPP_COMMENT_NL» u15.text] (u0 :: (u1 :: (u2 :: (u3 :: (w4 ++ (u5 :: (u6 :: (u7 :: (u8 :: (u9 :: (u10 :: (u11 :: (u12 :: (u13 :: (u14 :: (u15 :: ([]))))))))))))))))) n := (.tok k0 (by decide) (.tok k1 (by decide) (.tok k2 (by decide) (.tok k3 (by decide) (.nt (by simpa only [List.append_assoc, List.nil_append, List.append_nil, List.cons_append, nextT_append, nextT_cons, nextT_nil] using h4) (.tok k5 (by decide) (.tok k6 (by decide) (.tok k7 (by decide) (.tok k8 (by decide) (.tok k9 (by decide) (.tok k10 (by decide) (.tok k11 (by decide) (.tok k12 (by decide) (.tok k13 (by decide) (.tok k14 (by decide) (.tok k15 (by decide) .nil))))))))))) (fun h h' => by first | exact absurd h (by decide) | exact absurd h' (by decide))))))); simpa only [List.append_assoc, List.nil_append, List.append_nil, List.cons_append, nextT_append, nextT_cons, nextT_nil] using this) (by simp only [keepKids', List.flatMap_cons, List.flatMap_nil, List.replicate_zero, List.replicate_succ, List.getElem?_cons_zero, List.getElem?_cons_succ, Bool.false_eq_true, if_true, if_false, List.append_nil, List.nil_append, List.cons_append, List.append_assoc, kidsOf_nd] <;> rfl)

theorem y_170 {n : Nat} {u0 : Tok} {u1 : Tok} {u2 : Tok} {u3 : Tok} {u4 : Tok} {u5 : Tok} {u6 : Tok} {u7 : Tok} (k0 : u0.type = T.«AT») (k1 : u1.type = T.«__ANON_2») (k2 : u2.type = T.«LPAR») (k3 : u3.type = T.«_CPP_COMMENT_NL») (k4 : u4.type = T.«_CPP_COMMENT_NL») (k5 : u5.type = T.«RPAR») (k6 : u6.type = T.«_CPP_COMMENT_NL») (k7 : u7.type = T.«_CPP_COMMENT_NL») :
    Y N.«decorator» (nd "decorator" [tk T.«__ANON_2» u1.text]) (u0 :: (u1 :: (u2 :: (u3 :: (u4 :: (u5 :: (u6 :: [u7]))))))) n :=
  Y.node ⟨N.«decorator», [T.«AT», T.«__ANON_2», T.«LPAR», T.«_CPP_COMMENT_NL», T.«_CPP_COMMENT_NL», T.«RPAR», T.«_CPP_COMMENT_NL», T.«_CPP_COMMENT_NL»], "decorator", false, [(1, false, 0)], 0⟩ (by decide +kernel) rfl (by decide) (free_plain (by decide) (by decide)) (cs := [tk T.«AT» u0.text, tk T.«__ANON_2» u1.text, tk T.«LPAR» u2.text, tk T.«_CPP_COMMENT_NL» u3.text, tk T.«_CPP_COMMENT_NL» u4.text, tk T.«RPAR» u5.text, tk T.«_CPP_COMMENT_NL» u6.text, tk T.«_CPP_COMMENT_NL» u7.text]) (by have : YL [T.«AT», T.«__ANON_2», T.«LPAR», T.«_CPP_COMMENT_NL», T.«_CPP_COMMENT_NL», T.«RPAR», T.«_CPP_COMMENT_NL», T.«_CPP_COMMENT_NL»] [tk T.«AT» u0.text, tk T.«__ANON_2» u1.text, tk T.«LPAR» u2.text, tk T.«_CPP_COMMENT_NL» u3.text, tk T.«_CPP_COMMENT_NL» u4.text, tk T.«RPAR» u5.text, tk T.«_CPP_COMMENT_NL» u6.text, tk T.«_CPP_COMMENT_NL» u7.text] (u0 :: (u1 :: (u2 :: (u3 :: (u4 :: (u5 :: (u6 :: (u7 :: ([]))))))))) n := (.tok k0 (by decide) (.tok k1 (by decide) (.tok k2 (by decide) (.tok k3 (by decide) (.tok k4 (by decide) (.tok k5 (by decide) (.tok k6 (by decide) (.tok k7 (by decide) .nil)))))))); simpa only [List.append_assoc, List.nil_append, List.append_nil, List.cons_append, nextT_append, nextT_cons, nextT_nil] using this) (by simp only [keepKids', List.flatMap_cons, List.flatMap_nil, List.replicate_zero, List.replicate_succ, List.getElem?_cons_zero, List.getElem?_cons_succ, Bool.false_eq_true, if_true, if_false, List.append_nil, List.nil_append, List.cons_append, List.append_assoc, kidsOf_nd] <;> rfl)

theorem y_173 {n : Nat} {u0 : Tok} {u1 : Tok} {u2 : Tok} {u3 : Tok} {u4 : Tok} {u5 : Tok} {u6 : Tok} {u7 : Tok} {u8 : Tok} {u9 : Tok} {u10 : Tok} (k0 : u0.type = T.«AT») (k1 : u1.type = T.«__ANON_2») (k2 : u2.type = T.«LPAR») (k3 : u3.type = T.«_CPP_COMMENT_NL») (k4 : u4.type = T.«_CPP_COMMENT_NL») (k5 : u5.type = T.«RPAR») (k6 : u6.type = T.«_CPP_COMMENT_NL») (k7 : u7.type = T.«_CPP_COMMENT_NL») (k8 : u8.type = T.«_CPP_COMMENT_NL») (k9 : u9.type = T.«_CPP_COMMENT_NL») (k10 : u10.type = T.«_CPP_COMMENT_NL») :
    Y N.«decorator» (nd "decorator" [tk T.«__ANON_2» u1.text]) (u0 :: (u1 :: (u2 :: (u3 :: (u4 :: (u5 :: (u6 :: (u7 :: (u8 :: (u9 :: [u10])))))))))) n :=
  Y.node ⟨N.«decorator», [T.«AT», T.«__ANON_2», T.«LPAR», T.«_CPP_COMMENT_NL», T.«_CPP_COMMENT_NL», T.«RPAR», T.«_CPP_COMMENT_NL», T.«_CPP_COMMENT_NL», T.«_CPP_COMMENT_NL», T.«_CPP_COMMENT_NL», T.«_CPP_COMMENT_NL»], "decorator", false, [(1, false, 0)], 0⟩ (by decide +kernel) rfl (by decide) (free_plain (by decide) (by decide)) (cs := [tk T.«AT» u0.text, tk T.«__ANON_2» u1.text, tk T.«LPAR» u2.text, tk T.«_CPP_COMMENT_NL» u3.text, tk T.«_CPP_COMMENT_NL» u4.text, tk T.«RPAR» u5.text, tk T.«_CPP_COMMENT_NL» u6.text, tk T.«_CPP_COMMENT_NL» u7.text, tk T.«_CPP_COMMENT_NL» u8.text, tk T.«_CPP_COMMENT_NL» u9.text, tk T.«_CPP_COMMENT_NL» u10.text]) (by have : YL [T.«AT», T.«__ANON_2», T.«LPAR», T.«_CPP_COMMENT_NL», T.«_CPP_COMMENT_NL», T.«RPAR», T.«_CPP_COMMENT_NL», T.«_CPP_COMMENT_NL», T.«_CPP_COMMENT_NL», T.«_CPP_COMMENT_NL», T.«_CPP_COMMENT_NL»] [tk T.«AT» u0.text, tk T.«__ANON_2» u1.text, tk T.«LPAR» u2.text, tk T.«_CPP_COMMENT_NL» u3.text, tk T.«_CPP_COMMENT_NL» u4.text, tk T.«RPAR» u5.text, tk T.«_CPP_COMMENT_NL» u6.text, tk T.«_CPP_COMMENT_NL» u7.text, tk T.«_CPP_COMMENT_NL» u8.text, tk T.«_CPP_COMMENT_NL» u9.text, tk T.«_CPP_COMMENT_NL» u10.text] (u0 :: (u1 :: (u2 :: (u3 :: (u4 :: (u5 :: (u6 :: (u7 :: (u8 :: (u9 :: (u10 :: ([])))))))))))) n := (.tok k0 (by decide) (.tok k1 (by decide) (.tok k2 (by decide) (.tok k3 (by decide) (.tok k4 (by decide) (.tok k5 (by decide) (.tok k6 (by decide) (.tok k7 (by decide) (.tok k8 (by decide) (.tok k9 (by decide) (.tok k10 (by decide) .nil))))))))))); simpa only [List.append_assoc, List.nil_append, List.append_nil, List.cons_append, nextT_append, nextT_cons, nextT_nil] using this) (by simp only [keepKids', List.flatMap_cons, List.flatMap_nil, List.replicate_zero, List.replicate_succ, List.getElem?_cons_zero, List.getElem?_cons_succ, Bool.false_eq_true, if_true, if_false, List.append_nil, List.nil_append, List.cons_append, List.append_assoc, kidsOf_nd] <;> rfl)

theorem y_176 {n : Nat} {u0 : Tok} {u1 : Tok} {u2 : Tok} {u3 : Tok} {u4 : Tok} {u5 : Tok} {u6 : Tok} {u7 : Tok} {u8 : Tok} {u9 : Tok} {u10 : Tok} {u11 : Tok} {u12 : Tok} {u13 : Tok} (k0 : u0.type = T.«AT») (k1 : u1.type = T.«__ANON_2») (k2 : u2.type = T.«LPAR») (k3 : u3.type = T.«_CPP_COMMENT_NL») (k4 : u4.type = T.«_CPP_COMMENT_NL») (k5 : u5.type = T.«RPAR») (k6 : u6.type = T.«_CPP_COMMENT_NL») (k7 : u7.type = T.«_CPP_COMMENT_NL») (k8 : u8.type = T.«_CPP_COMMENT_NL») (k9 : u9.type = T.«_CPP_COMMENT_NL») (k10 : u10.type = T.«_CPP_COMMENT_NL») (k11 : u11.type = T.«_CPP_COMMENT_NL») (k12 : u12.type = T.«_CPP_COMMENT_NL») (k13 : u13.type = T.«_CPP_COMMENT_NL») :
    Y N.«decorator» (nd "decorator" [tk T.«__ANON_2» u1.text]) (u0 :: (u1 :: (u2 :: (u3 :: (u4 :: (u5 :: (u6 :: (u7 :: (u8 :: (u9 :: (u10 :: (u11 :: (u12 :: [u13]))))))))))))) n :=
  Y.node ⟨N.«decorator», [T.«AT», T.«__ANON_2», T.«LPAR», T.«_CPP_COMMENT_NL», T.«_CPP_COMMENT_NL», T.«RPAR», T.«_CPP_COMMENT_NL», T.«_CPP_COMMENT_NL», T.«_CPP_COMMENT_NL», T.«_CPP_COMMENT_NL», T.«_CPP_COMMENT_NL», T.«_CPP_COMMENT_NL», T.«_CPP_COMMENT_NL», T.«_CPP_COMMENT_NL»], "decorator", false, [(1, false, 0)], 0⟩ (by decide +kernel) rfl (by decide) (free_plain (by decide) (by decide)) (cs := [tk T.«AT» u0.text, tk T.«__ANON_2» u1.text, tk T.«LPAR» u2.text, tk T.«_CPP_COMMENT_NL» u3.text, tk T.«_CPP_COMMENT_NL» u4.text, tk T.«RPAR» u5.text, tk T.«_CPP_COMMENT_NL» u6.text, tk T.«_CPP_COMMENT_NL» u7.text, tk T.«_CPP_COMMENT_NL» u8.text, tk T.«_CPP_COMMENT_NL» u9.text, tk T.«_CPP_COMMENT_NL» u10.text, tk T.«_CPP_COMMENT_NL» u11.text, tk T.«_CPP_COMMENT_NL» u12.text, tk T.«_CPP_COMMENT_NL» u13.text]) (by have : YL [T.«AT», T.«__ANON_2», T.«LPAR», T.«_CPP_COMMENT_NL», T.«_CPP_COMMENT_NL», T.«RPAR», T.«_CPP_COMMENT_NL», T.«_CPP_COMMENT_NL», T.«_CPP_COMMENT_NL», T.«_CPP_COMMENT_NL», T.«_CPP_COMMENT_NL», T.«_CPP_COMMENT_NL», T.«_CPP_COMMENT_NL», T.«_CPP_COMMENT_NL»] [tk T.«AT» u0.text, tk T.«__ANON_2» u1.text, tk T.«LPAR» u2.text, tk T.«_CPP_COMMENT_NL» u3.text, tk T.«_CPP_COMMENT_NL» u4.text, tk T.«RPAR» u5.text, tk T.«_CPP_COMMENT_NL» u6.text, tk T.«_CPP_COMMENT_NL» u7.text, tk T.«_CPP_COMMENT_NL» u8.text, tk T.«_CPP_COMMENT_NL» u9.text, tk T.«_CPP_COMMENT_NL» u10.text, tk T.«_CPP_COMMENT_NL» u11.text, tk T.«_CPP_COMMENT_NL» u12.text, tk T.«_CPP_COMMENT_NL» u13.text] (u0 :: (u1 :: (u2 :: (u3 :: (u4 :: (u5 :: (u6 :: (u7 :: (u8 :: (u9 :: (u10 :: (u11 :: (u12 :: (u13 :: ([]))))))))))))))) n := (.tok k0 (by decide) (.tok k1 (by decide) (.tok k2 (by decide) (.tok k3 (by decide) (.tok k4 (by decide) (.tok k5 (by decide) (.tok k6 (by decide) (.tok k7 (by decide) (.tok k8 (by decide) (.tok k9 (by decide) (.tok k10 (by decide) (.tok k11 (by decide) (.tok k12 (by decide) (.tok k13 (by decide) .nil)))))))))))))); simpa only [List.append_assoc, List.nil_append, List.append_nil, List.cons_append, nextT_append, nextT_cons, nextT_nil] using this) (by simp only [keepKids', List.flatMap_cons, List.flatMap_nil, List.replicate_zero, List.replicate_succ, List.getElem?_cons_zero, List.getElem?_cons_succ, Bool.false_eq_true, if_true, if_false, List.append_nil, List.nil_append, List.cons_append, List.append_assoc, kidsOf_nd] <;> rfl)

theorem y_179 {n : Nat} {u0 : Tok} {u1 : Tok} {u2 : Tok} {u3 : Tok} {u4 : Tok} (k0 : u0.type = T.«AT») (k1 : u1.type = T.«__ANON_2») (k2 : u2.type = T.«LPAR») (k3 : u3.type = T.«_CPP_COMMENT_NL») (k4 : u4.type = T.«RPAR») :
    Y N.«decorator» (nd "decorator" [tk T.«__ANON_2» u1.text]) (u0 :: (u1 :: (u2 :: (u3 :: [u4])))) n :=
  Y.node ⟨N.«decorator», [T.«AT», T.«__ANON_2», T.«LPAR», T.«_CPP_COMMENT_NL», T.«RPAR»], "decorator", false, [(1, false, 0)], 0⟩ (by decide +kernel) rfl (by decide) (free_plain (by decide) (by decide)) (cs := [tk T.«AT» u0.text, tk T.«__ANON_2» u1.text, tk T.«LPAR» u2.text, tk T.«_CPP_COMMENT_NL» u3.text, tk T.«RPAR» u4.text]) (by have : YL [T.«AT», T.«__ANON_2», T.«LPAR», T.«_CPP_COMMENT_NL», T.«RPAR»] [tk T.«AT» u0.text, tk T.«__ANON_2» u1.text, tk T.«LPAR» u2.text, tk T.«_CPP_COMMENT_NL» u3.text, tk T.«RPAR» u4.text] (u0 :: (u1 :: (u2 :: (u3 :: (u4 :: ([])))))) n := (.tok k0 (by decide) (.tok k1 (by decide) (.tok k2 (by decide) (.tok k3 (by decide) (.tok k4 (by decide) .nil))))); simpa only [List.append_assoc, List.nil_append, List.append_nil, List.cons_append, nextT_append, nextT_cons, nextT_nil] using this) (by simp only [keepKids', List.flatMap_cons, List.flatMap_nil, List.replicate_zero, List.replicate_succ, List.getElem?_cons_zero, List.getElem?_cons_succ, Bool.false_eq_true, if_true, if_false, List.append_nil, List.nil_append, List.cons_append, List.append_assoc, kidsOf_nd] <;> rfl)

theorem y_182 {n : Nat} {u0 : Tok} {u1 : Tok} {u2 : Tok} {u3 : Tok} {u4 : Tok} {u5 : Tok} {u6 : Tok} {u7 : Tok} (k0 : u0.type = T.«AT») (k1 : u1.type = T.«__ANON_2») (k2 : u2.type = T.«LPAR») (k3 : u3.type = T.«_CPP_COMMENT_NL») (k4 : u4.type = T.«RPAR») (k5 : u5.type = T.«_CPP_COMMENT_NL») (k6 : u6.type = T.«_CPP_COMMENT_NL») (k7 : u7.type = T.«_CPP_COMMENT_NL») :
    Y N.«decorator» (nd "decorator" [tk T.«__ANON_2» u1.text]) (u0 :: (u1 :: (u2 :: (u3 :: (u4 :: (u5 :: (u6 :: [u7]))))))) n :=
  Y.node ⟨N.«decorator», [T.«AT», T.«__ANON_2», T.«LPAR», T.«_CPP_COMMENT_NL», T.«RPAR», T.«_CPP_COMMENT_NL», T.«_CPP_COMMENT_NL», T.«_CPP_COMMENT_NL»], "decorator", false, [(1, false, 0)], 0⟩ (by decide +kernel) rfl (by decide) (free_plain (by decide) (by decide)) (cs := [tk T.«AT» u0.text, tk T.«__ANON_2» u1.text, tk T.«LPAR» u2.text, tk T.«_CPP_COMMENT_NL» u3.text, tk T.«RPAR» u4.text, tk T.«_CPP_COMMENT_NL» u5.text, tk T.«_CPP_COMMENT_NL» u6.text, tk T.«_CPP_COMMENT_NL» u7.text]) (by have : YL [T.«AT», T.«__ANON_2», T.«LPAR», T.«_CPP_COMMENT_NL», T.«RPAR», T.«_CPP_COMMENT_NL», T.«_CPP_COMMENT_NL», T.«_CPP_COMMENT_NL»] [tk T.«AT» u0.text, tk T.«__ANON_2» u1.text, tk T.«LPAR» u2.text, tk T.«_CPP_COMMENT_NL» u3.text, tk T.«RPAR» u4.text, tk T.«_CPP_COMMENT_NL» u5.text, tk T.«_CPP_COMMENT_NL» u6.text, tk T.«_CPP_COMMENT_NL» u7.text] (u0 :: (u1 :: (u2 :: (u3 :: (u4 :: (u5 :: (u6 :: (u7 :: ([]))))))))) n := (.tok k0 (by decide) (.tok k1 (by decide) (.tok k2 (by decide) (.tok k3 (by decide) (.tok k4 (by decide) (.tok k5 (by decide) (.tok k6 (by decide) (.tok k7 (by decide) .nil)))))))); simpa only [List.append_assoc, List.nil_append, List.append_nil, List.cons_append, nextT_append, nextT_cons, nextT_nil] using this) (by simp only [keepKids', List.flatMap_cons, List.flatMap_nil, List.replicate_zero, List.replicate_succ, List.getElem?_cons_zero, List.getElem?_cons_succ, Bool.false_eq_true, if_true, if_false, List.append_nil, List.nil_append, List.cons_append, List.append_assoc, kidsOf_nd] <;> rfl)

theorem y_185 {n : Nat} {u0 : Tok} {u1 : Tok} {u2 : Tok} {u3 : Tok} {u4 : Tok} {u5 : Tok} {u6 : Tok} {u7 : Tok} {u8 : Tok} {u9 : Tok} {u10 : Tok} (k0 : u0.type = T.«AT») (k1 : u1.type = T.«__ANON_2») (k2 : u2.type = T.«LPAR») (k3 : u3.type = T.«_CPP_COMMENT_NL») (k4 : u4.type = T.«RPAR») (k5 : u5.type = T.«_CPP_COMMENT_NL») (k6 : u6.type = T.«_CPP_COMMENT_NL») (k7 : u7.type = T.«_CPP_COMMENT_NL») (k8 : u8.type = T.«_CPP_COMMENT_NL») (k9 : u9.type = T.«_CPP_COMMENT_NL») (k10 : u10.type = T.«_CPP_COMMENT_NL») :
    Y N.«decorator» (nd "decorator" [tk T.«__ANON_2» u1.text]) (u0 :: (u1 :: (u2 :: (u3 :: (u4 :: (u5 :: (u6 :: (u7 :: (u8 :: (u9 :: [u10])))))))))) n :=
  Y.node ⟨N.«decorator», [T.«AT», T.«__ANON_2», T.«LPAR», T.«_CPP_COMMENT_NL», T.«RPAR», T.«_CPP_COMMENT_NL», T.«_CPP_COMMENT_NL», T.«_CPP_COMMENT_NL», T.«_CPP_COMMENT_NL», T.«_CPP_COMMENT_NL», T.«_CPP_COMMENT_NL»], "decorator", false, [(1, false, 0)], 0⟩ (by decide +kernel) rfl (by decide) (free_plain (by decide) (by decide)) (cs := [tk T.«AT» u0.text, tk T.«__ANON_2» u1.text, tk T.«LPAR» u2.text, tk T.«_CPP_COMMENT_NL» u3.text, tk T.«RPAR» u4.text, tk T.«_CPP_COMMENT_NL» u5.text, tk T.«_CPP_COMMENT_NL» u6.text, tk T.«_CPP_COMMENT_NL» u7.text, tk T.«_CPP_COMMENT_NL» u8.text, tk T.«_CPP_COMMENT_NL» u9.text, tk T.«_CPP_COMMENT_NL» u10.text]) (by have : YL [T.«AT», T.«__ANON_2», T.«LPAR», T.«_CPP_COMMENT_NL», T.«RPAR», T.«_CPP_COMMENT_NL», T.«_CPP_COMMENT_NL», T.«_CPP_COMMENT_NL», T.«_CPP_COMMENT_NL», T.«_CPP_COMMENT_NL», T.«_CPP_COMMENT_NL»] [tk T.«AT» u0.text, tk T.«__ANON_2» u1.text, tk T.«LPAR» u2.text, tk T.«_CPP_COMMENT_NL» u3.text, tk T.«RPAR» u4.text, tk T.«_CPP_COMMENT_NL» u5.text, tk T.«_CPP_COMMENT_NL» u6.text, tk T.«_CPP_COMMENT_NL» u7.text, tk T.«_CPP_COMMENT_NL» u8.text, tk T.«_CPP_COMMENT_NL» u9.text, tk T.«_CPP_COMMENT_NL» u10.text] (u0 :: (u1 :: (u2 :: (u3 :: (u4 :: (u5 :: (u6 :: (u7 :: (u8 :: (u9 :: (u10 :: ([])))))))))))) n := (.tok k0 (by decide) (.tok k1 (by decide) (.tok k2 (by decide) (.tok k3 (by decide) (.tok k4 (by decide) (.tok k5 (by decide) (.tok k6 (by decide) (.tok k7 (by decide) (.tok k8 (by decide) (.tok k9 (by decide) (.tok k10 (by decide) .nil))))))))))); simpa only [List.append_assoc, List.nil_append, List.append_nil, List.cons_append, nextT_append, nextT_cons, nextT_nil] using this) (by simp only [keepKids', List.flatMap_cons, List.flatMap_nil, List.replicate_zero, List.replicate_succ, List.getElem?_cons_zero, List.getElem?_cons_succ, Bool.false_eq_true, if_true, if_false, List.append_nil, List.nil_append, List.cons_append, List.append_assoc, kidsOf_nd] <;> rfl)

theorem y_188 {n : Nat} {u0 : Tok} {u1 : Tok} {u2 : Tok} {u3 : Tok} {u4 : Tok} {u5 : Tok} {u6 : Tok} {u7 : Tok} {u8 : Tok} {u9 : Tok} {u10 : Tok} {u11 : Tok} {u12 : Tok} {u13 : Tok} (k0 : u0.type = T.«AT») (k1 : u1.type = T.«__ANON_2») (k2 : u2.type = T.«LPAR») (k3 : u3.type = T.«_CPP_COMMENT_NL») (k4 : u4.type = T.«RPAR») (k5 : u5.type = T.«_CPP_COMMENT_NL») (k6 : u6.type = T.«_CPP_COMMENT_NL») (k7 : u7.type = T.«_CPP_COMMENT_NL») (k8 : u8.type = T.«_CPP_COMMENT_NL») (k9 : u9.type = T.«_CPP_COMMENT_NL») (k10 : u10.type = T.«_CPP_COMMENT_NL») (k11 : u11.type = T.«_CPP_COMMENT_NL») (k12 : u12.type = T.«_CPP_COMMENT_NL») (k13 : u13.type = T.«_CPP_COMMENT_NL») :
    Y N.«decorator» (nd "decorator" [tk T.«__ANON_2» u1.text]) (u0 :: (u1 :: (u2 :: (u3 :: (u4 :: (u5 :: (u6 :: (u7 :: (u8 :: (u9 :: (u10 :: (u11 :: (u12 :: [u13]))))))))))))) n :=
  Y.node ⟨N.«decorator», [T.«AT», T.«__ANON_2», T.«LPAR», T.«_CPP_COMMENT_NL», T.«RPAR», T.«_CPP_COMMENT_NL», T.«_CPP_COMMENT_NL», T.«_CPP_COMMENT_NL», T.«_CPP_COMMENT_NL», T.«_CPP_COMMENT_NL», T.«_CPP_COMMENT_NL», T.«_CPP_COMMENT_NL», T.«_CPP_COMMENT_NL», T.«_CPP_COMMENT_NL»], "decorator", false, [(1, false, 0)], 0⟩ (by decide +kernel) rfl (by decide) (free_plain (by decide) (by decide)) (cs := [tk T.«AT» u0.text, tk T.«__ANON_2» u1.text, tk T.«LPAR» u2.text, tk T.«_CPP_COMMENT_NL» u3.text, tk T.«RPAR» u4.text, tk T.«_CPP_COMMENT_NL» u5.text, tk T.«_CPP_COMMENT_NL» u6.text, tk T.«_CPP_COMMENT_NL» u7.text, tk T.«_CPP_COMMENT_NL» u8.text, tk T.«_CPP_COMMENT_NL» u9.text, tk T.«_CPP_COMMENT_NL» u10.text, tk T.«_CPP_COMMENT_NL» u11.text, tk T.«_CPP_COMMENT_NL» u12.text, tk T.«_CPP_COMMENT_NL» u13.text]) (by have : YL [T.«AT», T.«__ANON_2», T.«LPAR», T.«_CPP_COMMENT_NL», T.«RPAR», T.«_CPP_COMMENT_NL», T.«_CPP_COMMENT_NL», T.«_CPP_COMMENT_NL», T.«_CPP_COMMENT_NL», T.«_CPP_COMMENT_NL», T.«_CPP_COMMENT_NL», T.«_CPP_COMMENT_NL», T.«_CPP_COMMENT_NL», T.«_CPP_COMMENT_NL»] [tk T.«AT» u0.text, tk T.«__ANON_2» u1.text, tk T.«LPAR» u2.text, tk T.«_CPP_COMMENT_NL» u3.text, tk T.«RPAR» u4.text, tk T.«_CPP_COMMENT_NL» u5.text, tk T.«_CPP_COMMENT_NL» u6.text, tk T.«_CPP_COMMENT_NL» u7.text, tk T.«_CPP_COMMENT_NL» u8.text, tk T.«_CPP_COMMENT_NL» u9.text, tk T.«_CPP_COMMENT_NL» u10.text, tk T.«_CPP_COMMENT_NL» u11.text, tk T.«_CPP_COMMENT_NL» u12.text, tk T.«_CPP_COMMENT_NL» u13.text] (u0 :: (u1 :: (u2 :: (u3 :: (u4 :: (u5 :: (u6 :: (u7 :: (u8 :: (u9 :: (u10 :: (u11 :: (u12 :: (u13 :: ([]))))))))))))))) n := (.tok k0 (by decide) (.tok k1 (by decide) (.tok k2 (by decide) (.tok k3 (by decide) (.tok k4 (by decide) (.tok k5 (by decide) (.tok k6 (by decide) (.tok k7 (by decide) (.tok k8 (by decide) (.tok k9 (by decide) (.tok k10 (by decide) (.tok k11 (by decide) (.tok k12 (by decide) (.tok k13 (by decide) .nil)))))))))))))); simpa only [List.append_assoc, List.nil_append, List.append_nil, List.cons_append, nextT_append, nextT_cons, nextT_nil] using this) (by simp only [keepKids', List.flatMap_cons, List.flatMap_nil, List.replicate_zero, List.replicate_succ, List.getElem?_cons_zero, List.getElem?_cons_succ, Bool.false_eq_true, if_true, if_false, List.append_nil, List.nil_append, List.cons_append, List.append_assoc, kidsOf_nd] <;> rfl)

theorem y_191 {n : Nat} {u0 : Tok} {u1 : Tok} {u2 : Tok} {c3 : Tree} {w3 : List Tok} {u4 : Tok} {u5 : Tok} {u6 : Tok} (k0 : u0.type = T.«AT») (k1 : u1.type = T.«__ANON_2») (k2 : u2.type = T.«LPAR») (h3 : Y N.«value_brackets» c3 w3 u4.type) (k4 : u4.type = T.«_CPP_COMMENT_NL») (k5 : u5.type = T.«RPAR») (k6 : u6.type = T.«_CPP_COMMENT_NL») :
    Y N.«decorator» (nd "decorator" (tk T.«__ANON_2» u1.text :: [c3])) (u0 :: (u1 :: (u2 :: (w3 ++ (u4 :: (u5 :: [u6])))))) n :=
  Y.node ⟨N.«decorator», [T.«AT», T.«__ANON_2», T.«LPAR», N.«value_brackets», T.«_CPP_COMMENT_NL», T.«RPAR», T.«_CPP_COMMENT_NL»], "decorator", false, [(1, false, 0), (3, false, 0)], 0⟩ (by decide +kernel) rfl (by decide) (free_plain (by decide) (by decide)) (cs := [tk T.«AT» u0.text, tk T.«__ANON_2» u1.text, tk T.«LPAR» u2.text, c3, tk T.«_CPP_COMMENT_NL» u4.text, tk T.«RPAR» u5.text, tk T.«_CPP_COMMENT_NL» u6.text]) (by have : YL [T.«AT», T.«__ANON_2», T.«LPAR», N.«value_brackets», T.«_CPP_COMMENT_NL», T.«RPAR», T.«_CPP_COMMENT_NL»] [tk T.«AT» u0.text, tk T.«__ANON_2» u1.text, tk T.«LPAR» u2.text, c3, tk T.«_CPP_COMMENT_NL» u4.text, tk T.«RPAR» u5.text, tk T.«_CPP_COMMENT_NL» u6.text] (u0 :: (u1 :: (u2 :: (w3 ++ (u4 :: (u5 :: (u6 :: ([])))))))) n := (.tok k0 (by decide) (.tok k1 (by decide) (.tok k2 (by decide) (.nt (by simpa only [List.append_assoc, List.nil_append, List.append_nil, List.cons_append, nextT_append, nextT_cons, nextT_nil] using h3) (.tok k4 (by decide) (.tok k5 (by decide) (.tok k6 (by decide) .nil))) (fun h h' => by first | exact absurd h (by decide) | exact absurd h' (by decide)))))); simpa only [List.append_assoc, List.nil_append, List.append_nil, List.cons_append, nextT_append, nextT_cons, nextT_nil] using this) (by simp only [keepKids', List.flatMap_cons, List.flatMap_nil, List.replicate_zero, List.replicate_succ, List.getElem?_cons_zero, List.getElem?_cons_succ, Bool.false_eq_true, if_true, if_false, List.append_nil, List.nil_append, List.cons_append, List.append_assoc, kidsOf_nd] <;> rfl)

theorem y_194 {n : Nat} {u0 : Tok} {u1 : Tok} {u2 : Tok} {c3 : Tree} {w3 : List Tok} {u4 : Tok} {u5 : Tok} {u6 : Tok} {u7 : Tok} {u8 : Tok} {u9 : Tok} (k0 : u0.type = T.«AT») (k1 : u1.type = T.«__ANON_2») (k2 : u2.type = T.«LPAR») (h3 : Y N.«value_brackets» c3 w3 u4.type) (k4 : u4.type = T.«_CPP_COMMENT_NL») (k5 : u5.type = T.«RPAR») (k6 : u6.type = T.«_CPP_COMMENT_NL») (k7 : u7.type = T.«_CPP_COMMENT_NL») (k8 : u8.type = T.«_CPP_COMMENT_NL») (k9 : u9.type = T.«_CPP_COMMENT_NL») :
    Y N.«decorator» (nd "decorator" (tk T.«__ANON_2» u1.text :: [c3])) (u0 :: (u1 :: (u2 :: (w3 ++ (u4 :: (u5 :: (u6 :: (u7 :: (u8 :: [u9]))))))))) n :=
  Y.node ⟨N.«decorator», [T.«AT», T.«__ANON_2», T.«LPAR», N.«value_brackets», T.«_CPP_COMMENT_NL», T.«RPAR», T.«_CPP_COMMENT_NL», T.«_CPP_COMMENT_NL», T.«_CPP_COMMENT_NL», T.«_CPP_COMMENT_NL»], "decorator", false, [(1, false, 0), (3, false, 0)], 0⟩ (by decide +kernel) rfl (by decide) (free_plain (by decide) (by decide)) (cs := [tk T.«AT» u0.text, tk T.«__ANON_2» u1.text, tk T.«LPAR» u2.text, c3, tk T.«_CPP_COMMENT_NL» u4.text, tk T.«RPAR» u5.text, tk T.«_CPP_COMMENT_NL» u6.text, tk T.«_CPP_COMMENT_NL» u7.text, tk T.«_CPP_COMMENT_NL» u8.text, tk T.«_CPP_COMMENT_NL» u9.text]) (by have : YL [T.«AT», T.«__ANON_2», T.«LPAR», N.«value_brackets», T.«_CPP_COMMENT_NL», T.«RPAR», T.«_CPP_COMMENT_NL», T.«_CPP_COMMENT_NL», T.«_CPP_COMMENT_NL», T.«_CPP_COMMENT_NL»] [tk T.«AT» u0.text, tk T.«__ANON_2» u1.text, tk T.«LPAR» u2.text, c3, tk T.«_CPP_COMMENT_NL» u4.text, tk T.«RPAR» u5.text, tk T.«_CPP_COMMENT_NL» u6.text, tk T.«_CPP_COMMENT_NL» u7.text, tk T.«_CPP_COMMENT_NL» u8.text, tk T.«_CPP_COMMENT_NL» u9.text] (u0 :: (u1 :: (u2 :: (w3 ++ (u4 :: (u5 :: (u6 :: (u7 :: (u8 :: (u9 :: ([]))))))))))) n := (.tok k0 (by decide) (.tok k1 (by decide) (.tok k2 (by decide) (.nt (by simpa only [List.append_assoc, List.nil_append, List.append_nil, List.cons_append, nextT_append, nextT_cons, nextT_nil] using h3) (.tok k4 (by decide) (.tok k5 (by decide) (.tok k6 (by decide) (.tok k7 (by decide) (.tok k8 (by decide) (.tok k9 (by decide) .nil)))))) (fun h h' => by first | exact absurd h (by decide) | exact absurd h' (by decide)))))); simpa only [List.append_assoc, List.nil_append, List.append_nil, List.cons_append, nextT_append, nextT_cons, nextT_nil] using this) (by simp only [keepKids', List.flatMap_cons, List.flatMap_nil, List.replicate_zero, List.replicate_succ, List.getElem?_cons_zero, List.getElem?_cons_succ, Bool.false_eq_true, if_true, if_false, List.append_nil, List.nil_append, List.cons_append, List.append_assoc, kidsOf_nd] <;> rfl)

theorem y_197 {n : Nat} {u0 : Tok} {u1 : Tok} {u2 : Tok} {c3 : Tree} {w3 : List Tok} {u4 : Tok} {u5 : Tok} {u6 : Tok} {u7 : Tok} {u8 : Tok} {u9 : Tok} {u10 : Tok} {u11 : Tok} {u12 : Tok} (k0 : u0.type = T.«AT») (k1 : u1.type = T.«__ANON_2») (k2 : u2.type = T.«LPAR») (h3 : Y N.«value_brackets» c3 w3 u4.type) (k4 : u4.type = T.«_CPP_COMMENT_NL») (k5 : u5.type = T.«RPAR») (k6 : u6.type = T.«_CPP_COMMENT_NL») (k7 : u7.type = T.«_CPP_COMMENT_NL») (k8 : u8.type = T.«_CPP_COMMENT_NL») (k9 : u9.type = T.«_CPP_COMMENT_NL») (k10 : u10.type = T.«_CPP_COMMENT_NL») (k11 : u11.type = T.«_CPP_COMMENT_NL») (k12 : u12.type = T.«_CPP_COMMENT_NL») :
    Y N.«decorator» (nd "decorator" (tk T.«__ANON_2» u1.text :: [c3])) (u0 :: (u1 :: (u2 :: (w3 ++ (u4 :: (u5 :: (u6 :: (u7 :: (u8 :: (u9 :: (u10 :: (u11 :: [u12])))))))))))) n :=
  Y.node ⟨N.«decorator», [T.«AT», T.«__ANON_2», T.«LPAR», N.«value_brackets», T.«_CPP_COMMENT_NL», T.«RPAR», T.«_CPP_COMMENT_NL», T.«_CPP_COMMENT_NL», T.«_CPP_COMMENT_NL», T.«_CPP_COMMENT_NL», T.«_CPP_COMMENT_NL», T.«_CPP_COMMENT_NL», T.«_CPP_COMMENT_NL»], "decorator", false, [(1, false, 0), (3, false, 0)], 0⟩ (by decide +kernel) rfl (by decide) (free_plain (by decide) (by decide)) (cs := [tk T.«AT» u0.text, tk T.«__ANON_2» u1.text, tk T.«LPAR» u2.text, c3, tk T.«_CPP_COMMENT_NL» u4.text, tk T.«RPAR» u5.text, tk T.«_CPP_COMMENT_NL» u6.text, tk T.«_CPP_COMMENT_NL» u7.text, tk T.«_CPP_COMMENT_NL» u8.text, tk T.«_CPP_COMMENT_NL» u9.text, tk T.«_CPP_COMMENT_NL» u10.text, tk T.«_CPP_COMMENT_NL» u11.text, tk T.«_CPP_COMMENT_NL» u12.text]) (by have : YL [T.«AT», T.«__ANON_2», T.«LPAR», N.«value_brackets», T.«_CPP_COMMENT_NL», T.«RPAR», T.«_CPP_COMMENT_NL», T.«_CPP_COMMENT_NL», T.«_CPP_COMMENT_NL», T.«_CPP_COMMENT_NL», T.«_CPP_COMMENT_NL», T.«_CPP_COMMENT_NL», T.«_CPP_COMMENT_NL»] [tk T.«AT» u0.text, tk T.«__ANON_2» u1.text, tk T.«LPAR» u2.text, c3, tk T.«_CPP_COMMENT_NL» u4.text, tk T.«RPAR» u5.text, tk T.«_CPP_COMMENT_NL» u6.text, tk T.«_CPP_COMMENT_NL» u7.text, tk T.«_CPP_COMMENT_NL» u8.text, tk T.«_CPP_COMMENT_NL» u9.text, tk T.«_CPP_COMMENT_NL» u10.text, tk T.«_CPP_COMMENT_NL» u11.text, tk T.«_CPP_COMMENT_NL» u12.text] (u0 :: (u1 :: (u2 :: (w3 ++ (u4 :: (u5 :: (u6 :: (u7 :: (u8 :: (u9 :: (u10 :: (u11 :: (u12 :: ([])))))))))))))) n := (.tok k0 (by decide) (.tok k1 (by decide) (.tok k2 (by decide) (.nt (by simpa only [List.append_assoc, List.nil_append, List.append_nil, List.cons_append, nextT_append, nextT_cons, nextT_nil] using h3) (.tok k4 (by decide) (.tok k5 (by decide) (.tok k6 (by decide) (.tok k7 (by decide) (.tok k8 (by decide) (.tok k9 (by decide) (.tok k10 (by decide) (.tok k11 (by decide) (.tok k12 (by decide) .nil))))))))) (fun h h' => by first | exact absurd h (by decide) | exact absurd h' (by decide)))))); simpa only [List.append_assoc, List.nil_append, List.append_nil, List.cons_append, nextT_append, nextT_cons, nextT_nil] using this) (by simp only [keepKids', List.flatMap_cons, List.flatMap_nil, List.replicate_zero, List.replicate_succ, List.getElem?_cons_zero, List.getElem?_cons_succ, Bool.false_eq_true, if_true, if_false, List.append_nil, List.nil_append, List.cons_append, List.append_assoc, kidsOf_nd] <;> rfl)

theorem y_200 {n : Nat} {u0 : Tok} {u1 : Tok} {u2 : Tok} {c3 : Tree} {w3 : List Tok} {u4 : Tok} {u5 : Tok} {u6 : Tok} {u7 : Tok} {u8 : Tok} {u9 : Tok} {u10 : Tok} {u11 : Tok} {u12 : Tok} {u13 : Tok} {u14 : Tok} {u15 : Tok} (k0 : u0.type = T.«AT») (k1 : u1.type = T.«__ANON_2») (k2 : u2.type = T.«LPAR») (h3 : Y N.«value_brackets» c3 w3 u4.type) (k4 : u4.type = T.«_CPP_COMMENT_NL») (k5 : u5.type = T.«RPAR») (k6 : u6.type = T.«_CPP_COMMENT_NL») (k7 : u7.type = T.«_CPP_COMMENT_NL») (k8 : u8.type = T.«_CPP_COMMENT_NL») (k9 : u9.type = T.«_CPP_COMMENT_NL») (k10 : u10.type = T.«_CPP_COMMENT_NL») (k11 : u11.type = T.«_CPP_COMMENT_NL») (k12 : u12.type = T.«_CPP_COMMENT_NL») (k13 : u13.type = T.«_CPP_COMMENT_NL») (k14 : u14.type = T.«_CPP_COMMENT_NL») (k15 : u15.type = T.«_CPP_COMMENT_NL») :
    Y N.«decorator» (nd "decorator" (tk T.«__ANON_2» u1.text :: [c3])) (u0 :: (u1 :: (u2 :: (w3 ++ (u4 :: (u5 :: (u6 :: (u7 :: (u8 :: (u9 :: (u10 :: (u11 :: (u12 :: (u13 :: (u14 :: [u15]))))))))))))))) n :=
  Y.node ⟨N.«decorator», [T.«AT», T.«__ANON_2», T.«LPAR», N.«value_brackets», T.«_CPP_COMMENT_NL», T.«RPAR», T.«_CPP_COMMENT_NL», T.«_CPP_COMMENT_NL», T.«_CPP_COMMENT_NL», T.«_CPP_COMMENT_NL», T.«_CPP_COMMENT_NL», T.«_CPP_COMMENT_NL», T.«_CPP_COMMENT_NL», T.«_CPP_COMMENT_NL», T.«_CPP_COMMENT_NL», T.«_CPP_COMMENT_NL»], "decorator", false, [(1, false, 0), (3, false, 0)], 0⟩ (by decide +kernel) rfl (by decide) (free_plain (by decide) (by decide)) (cs := [tk T.«AT» u0.text, tk T.«__ANON_2» u1.text, tk T.«LPAR» u2.text, c3, tk T.«_CPP_COMMENT_NL» u4.text, tk T.«RPAR» u5.text, tk T.«_CPP_COMMENT_NL» u6.text, tk T.«_CPP_COMMENT_NL» u7.text, tk T.«_CPP_COMMENT_NL» u8.text, tk T.«_CPP_COMMENT_NL» u9.text, tk T.«_CPP_COMMENT_NL» u10.text, tk T.«_CPP_COMMENT_NL» u11.text, tk T.«_CPP_COMMENT_NL» u12.text, tk T.«_CPP_COMMENT_NL» u13.text, tk T.«_CPP_COMMENT_NL» u14.text, tk T.«_CPP_COMMENT_NL» u15.text]) (by have : YL [T.«AT», T.«__ANON_2», T.«LPAR», N.«value_brackets», T.«_CPP_COMMENT_NL», T.«RPAR», T.«_CPP_COMMENT_NL», T.«_CPP_COMMENT_NL», T.«_CPP_COMMENT_NL», T.«_CPP_COMMENT_NL», T.«_CPP_COMMENT_NL», T.«_CPP_COMMENT_NL», T.«_CPP_COMMENT_NL», T.«_CPP_COMMENT_NL», T.«_CPP_COMMENT_NL», T.«_CPP_COMMENT_NL»] [tk T.«AT» u0.text, tk T.«__ANON_2» u1.text, tk T.«LPAR» u2.text, c3, tk T.«_CPP_COMMENT_NL» u4.text, tk T.«RPAR» u5.text, tk T.«_CPP_COMMENT_NL» u6.text, tk T.«_CPP_COMMENT_NL» u7.text, tk T.«_CPP_COMMENT_NL» u8.text, tk T.«_CPP_COMMENT_NL» u9.text, tk T.«_CPP_COMMENT_NL» u10.text, tk T.«_CPP_COMMENT_NL» u11.text, tk T.«_CPP_COMMENT_NL» u12.text, tk T.«_CPP_COMMENT_NL» u13.text, tk T.«_CPP_COMMENT_NL» u14.text, tk T.«_CPP_COMMENT_NL» u15.text] (u0 :: (u1 :: (u2 :: (w3 ++ (u4 :: (u5 :: (u6 :: (u7 :: (u8 :: (u9 :: (u10 :: (u11 :: (u12 :: (u13 :: (u14 :: (u15 :: ([]))))))))))))))))) n := (.tok k0 (by decide) (.tok k1 (by decide) (.tok k2 (by decide) (.nt (by simpa only [List.append_assoc, List.nil_append, List.append_nil, List.cons_append, nextT_append, nextT_cons, nextT_nil] using h3) (.tok k4 (by decide) (.tok k5 (by decide) (.tok k6 (by decide) (.tok k7 (by decide) (.tok k8 (by decide) (.tok k9 (by decide) (.tok k10 (by decide) (.tok k11 (by decide) (.tok k12 (by decide) (.tok k13 (by decide) (.tok k14 (by decide) (.tok k15 (by decide) .nil)))))))))))) (fun h h' => by first | exact absurd h (by decide) | exact absurd h' (by decide)))))); simpa only [List.append_assoc, List.nil_append, List.append_nil, List.cons_append, nextT_append, nextT_cons, nextT_nil] using this) (by simp only [keepKids', List.flatMap_cons, List.flatMap_nil, List.replicate_zero, List.replicate_succ, List.getElem?_cons_zero, List.getElem?_cons_succ, Bool.false_eq_true, if_true, if_false, List.append_nil, List.nil_append, List.cons_append, List.append_assoc, kidsOf_nd] <;> rfl)

theorem y_203 {n : Nat} {u0 : Tok} {u1 : Tok} {u2 : Tok} {c3 : Tree} {w3 : List Tok} {u4 : Tok} {u5 : Tok} {u6 : Tok} (k0 : u0.type = T.«AT») (k1 : u1.type = T.«__ANON_2») (k2 : u2.type = T.«LPAR») (h3 : Y N.«value_brackets» c3 w3 u4.type) (k4 : u4.type = T.«RPAR») (k5 : u5.type = T.«_CPP_COMMENT_NL») (k6 : u6.type = T.«_CPP_COMMENT_NL») :
    Y N.«decorator» (nd "decorator" (tk T.«__ANON_2» u1.text :: [c3])) (u0 :: (u1 :: (u2 :: (w3 ++ (u4 :: (u5 :: [u6])))))) n :=
  Y.node ⟨N.«decorator», [T.«AT», T.«__ANON_2», T.«LPAR», N.«value_brackets», T.«RPAR», T.«_CPP_COMMENT_NL», T.«_CPP_COMMENT_NL»], "decorator", false, [(1, false, 0), (3, false, 0)], 0⟩ (by decide +kernel) rfl (by decide) (free_plain (by decide) (by decide)) (cs := [tk T.«AT» u0.text, tk T.«__ANON_2» u1.text, tk T.«LPAR» u2.text, c3, tk T.«RPAR» u4.text, tk T.«_CPP_COMMENT_NL» u5.text, tk T.«_CPP_COMMENT_NL» u6.text]) (by have : YL [T.«AT», T.«__ANON_2», T.«LPAR», N.«value_brackets», T.«RPAR», T.«_CPP_COMMENT_NL», T.«_CPP_COMMENT_NL»] [tk T.«AT» u0.text, tk T.«__ANON_2» u1.text, tk T.«LPAR» u2.text, c3, tk T.«RPAR» u4.text, tk T.«_CPP_COMMENT_NL» u5.text, tk T.«_CPP_COMMENT_NL» u6.text] (u0 :: (u1 :: (u2 :: (w3 ++ (u4 :: (u5 :: (u6 :: ([])))))))) n := (.tok k0 (by decide) (.tok k1 (by decide) (.tok k2 (by decide) (.nt (by simpa only [List.append_assoc, List.nil_append, List.append_nil, List.cons_append, nextT_append, nextT_cons, nextT_nil] using h3) (.tok k4 (by decide) (.tok k5 (by decide) (.tok k6 (by decide) .nil))) (fun h h' => by first | exact absurd h (by decide) | exact absurd h' (by decide)))))); simpa only [List.append_assoc, List.nil_append, List.append_nil, List.cons_append, nextT_append, nextT_cons, nextT_nil] using this) (by simp only [keepKids', List.flatMap_cons, List.flatMap_nil, List.replicate_zero, List.replicate_succ, List.getElem?_cons_zero, List.getElem?_cons_succ, Bool.false_eq_true, if_true, if_false, List.append_nil, List.nil_append, List.cons_append, List.append_assoc, kidsOf_nd] <;> rfl)

theorem y_206 {n : Nat} {u0 : Tok} {u1 : Tok} {u2 : Tok} {c3 : Tree} {w3 : List Tok} {u4 : Tok} {u5 : Tok} {u6 : Tok} {u7 : Tok} {u8 : Tok} {u9 : Tok} (k0 : u0.type = T.«AT») (k1 : u1.type = T.«__ANON_2») (k2 : u2.type = T.«LPAR») (h3 : Y N.«value_brackets» c3 w3 u4.type) (k4 : u4.type = T.«RPAR») (k5 : u5.type = T.«_CPP_COMMENT_NL») (k6 : u6.type = T.«_CPP_COMMENT_NL») (k7 : u7.type = T.«_CPP_COMMENT_NL») (k8 : u8.type = T.«_CPP_COMMENT_NL») (k9 : u9.type = T.«_CPP_COMMENT_NL») :
    Y N.«decorator» (nd "decorator" (tk T.«__ANON_2» u1.text :: [c3])) (u0 :: (u1 :: (u2 :: (w3 ++ (u4 :: (u5 :: (u6 :: (u7 :: (u8 :: [u9]))))))))) n :=
  Y.node ⟨N.«decorator», [T.«AT», T.«__ANON_2», T.«LPAR», N.«value_brackets», T.«RPAR», T.«_CPP_COMMENT_NL», T.«_CPP_COMMENT_NL», T.«_CPP_COMMENT_NL», T.«_CPP_COMMENT_NL», T.«_CPP_COMMENT_NL»], "decorator", false, [(1, false, 0), (3, false, 0)], 0⟩ (by decide +kernel) rfl (by decide) (free_plain (by decide) (by decide)) (cs := [tk T.«AT» u0.text, tk T.«__ANON_2» u1.text, tk T.«LPAR» u2.text, c3, tk T.«RPAR» u4.text, tk T.«_CPP_COMMENT_NL» u5.text, tk T.«_CPP_COMMENT_NL» u6.text, tk T.«_CPP_COMMENT_NL» u7.text, tk T.«_CPP_COMMENT_NL» u8.text, tk T.«_CPP_COMMENT_NL» u9.text]) (by have : YL [T.«AT», T.«__ANON_2», T.«LPAR», N.«value_brackets», T.«RPAR», T.«_CPP_COMMENT_NL», T.«_CPP_COMMENT_NL», T.«_CPP_COMMENT_NL», T.«_CPP_COMMENT_NL», T.«_CPP_COMMENT_NL»] [tk T.«AT» u0.text, tk T.«__ANON_2» u1.text, tk T.«LPAR» u2.text, c3, tk T.«RPAR» u4.text, tk T.«_CPP_COMMENT_NL» u5.text, tk T.«_CPP_COMMENT_NL» u6.text, tk T.«_CPP_COMMENT_NL» u7.text, tk T.«_CPP_COMMENT_NL» u8.text, tk T.«_CPP_COMMENT_NL» u9.text] (u0 :: (u1 :: (u2 :: (w3 ++ (u4 :: (u5 :: (u6 :: (u7 :: (u8 :: (u9 :: ([]))))))))))) n := (.tok k0 (by decide) (.tok k1 (by decide) (.tok k2 (by decide) (.nt (by simpa only [List.append_assoc, List.nil_append, List.append_nil, List.cons_append, nextT_append, nextT_cons, nextT_nil] using h3) (.tok k4 (by decide) (.tok k5 (by decide) (.tok k6 (by decide) (.tok k7 (by decide) (.tok k8 (by decide) (.tok k9 (by decide) .nil)))))) (fun h h' => by first | exact absurd h (by decide) | exact absurd h' (by decide)))))); simpa only [List.append_assoc, List.nil_append, List.append_nil, List.cons_append, nextT_append, nextT_cons, nextT_nil] using this) (by simp only [keepKids', List.flatMap_cons, List.flatMap_nil, List.replicate_zero, List.replicate_succ, List.getElem?_cons_zero, List.getElem?_cons_succ, Bool.false_eq_true, if_true, if_false, List.append_nil, List.nil_append, List.cons_append, List.append_assoc, kidsOf_nd] <;> rfl)

theorem y_209 {n : Nat} {u0 : Tok} {u1 : Tok} {u2 : Tok} {c3 : Tree} {w3 : List Tok} {u4 : Tok} {u5 : Tok} {u6 : Tok} {u7 : Tok} {u8 : Tok} {u9 : Tok} {u10 : Tok} {u11 : Tok} {u12 : Tok} (k0 : u0.type = T.«AT») (k1 : u1.type = T.«__ANON_2») (k2 : u2.type = T.«LPAR») (h3 : Y N.«value_brackets» c3 w3 u4.type) (k4 : u4.type = T.«RPAR») (k5 : u5.type = T.«_CPP_COMMENT_NL») (k6 : u6.type = T.«_CPP_COMMENT_NL») (k7 : u7.type = T.«_CPP_COMMENT_NL») (k8 : u8.type = T.«_CPP_COMMENT_NL») (k9 : u9.type = T.«_CPP_COMMENT_NL») (k10 : u10.type = T.«_CPP_COMMENT_NL») (k11 : u11.type = T.«_CPP_COMMENT_NL») (k12 : u12.type = T.«_CPP_COMMENT_NL») :
    Y N.«decorator» (nd "decorator" (tk T.«__ANON_2» u1.text :: [c3])) (u0 :: (u1 :: (u2 :: (w3 ++ (u4 :: (u5 :: (u6 :: (u7 :: (u8 :: (u9 :: (u10 :: (u11 :: [u12])))))))))))) n :=
  Y.node ⟨N.«decorator», [T.«AT», T.«__ANON_2», T.«LPAR», N.«value_brackets», T.«RPAR», T.«_CPP_COMMENT_NL», T.«_CPP_COMMENT_NL», T.«_CPP_COMMENT_NL», T.«_CPP_COMMENT_NL», T.«_CPP_COMMENT_NL», T.«_CPP_COMMENT_NL», T.«_CPP_COMMENT_NL», T.«_CPP_COMMENT_NL»], "decorator", false, [(1, false, 0), (3, false, 0)], 0⟩ (by decide +kernel) rfl (by decide) (free_plain (by decide) (by decide)) (cs := [tk T.«AT» u0.text, tk T.«__ANON_2» u1.text, tk T.«LPAR» u2.text, c3, tk T.«RPAR» u4.text, tk T.«_CPP_COMMENT_NL» u5.text, tk T.«_CPP_COMMENT_NL» u6.text, tk T.«_CPP_COMMENT_NL» u7.text, tk T.«_CPP_COMMENT_NL» u8.text, tk T.«_CPP_COMMENT_NL» u9.text, tk T.«_CPP_COMMENT_NL» u10.text, tk T.«_CPP_COMMENT_NL» u11.text, tk T.«_CPP_COMMENT_NL» u12.text]) (by have : YL [T.«AT», T.«__ANON_2», T.«LPAR», N.«value_brackets», T.«RPAR», T.«_CPP_COMMENT_NL», T.«_CPP_COMMENT_NL», T.«_CPP_COMMENT_NL», T.«_CPP_COMMENT_NL», T.«_CPP_COMMENT_NL», T.«_CPP_COMMENT_NL», T.«_CPP_COMMENT_NL», T.«_CPP_COMMENT_NL»] [tk T.«AT» u0.text, tk T.«__ANON_2» u1.text, tk T.«LPAR» u2.text, c3, tk T.«RPAR» u4.text, tk T.«_CPP_COMMENT_NL» u5.text, tk T.«_CPP_COMMENT_NL» u6.text, tk T.«_CPP_COMMENT_NL» u7.text, tk T.«_CPP_COMMENT_NL» u8.text, tk T.«_CPP_COMMENT_NL» u9.text, tk T.«_CPP_COMMENT_NL» u10.text, tk T.«_CPP_COMMENT_NL» u11.text, tk T.«_CPP_COMMENT_NL» u12.text] (u0 :: (u1 :: (u2 :: (w3 ++ (u4 :: (u5 :: (u6 :: (u7 :: (u8 :: (u9 :: (u10 :: (u11 :: (u12 :: ([])))))))))))))) n := (.tok k0 (by decide) (.tok k1 (by decide) (.tok k2 (by decide) (.nt (by simpa only [List.append_assoc, List.nil_append, List.append_nil, List.cons_append, nextT_append, nextT_cons, nextT_nil] using h3) (.tok k4 (by decide) (.tok k5 (by decide) (.tok k6 (by decide) (.tok k7 (by decide) (.tok k8 (by decide) (.tok k9 (by decide) (.tok k10 (by decide) (.tok k11 (by decide) (.tok k12 (by decide) .nil))))))))) (fun h h' => by first | exact absurd h (by decide) | exact absurd h' (by decide)))))); simpa only [List.append_assoc, List.nil_append, List.append_nil, List.cons_append, nextT_append, nextT_cons, nextT_nil] using this) (by simp only [keepKids', List.flatMap_cons, List.flatMap_nil, List.replicate_zero, List.replicate_succ, List.getElem?_cons_zero, List.getElem?_cons_succ, Bool.false_eq_true, if_true, if_false, List.append_nil, List.nil_append, List.cons_append, List.append_assoc, kidsOf_nd] <;> rfl)

theorem y_212 {n : Nat} {u0 : Tok} {u1 : Tok} {u2 : Tok} {u3 : Tok} (k0 : u0.type = T.«AT») (k1 : u1.type = T.«__ANON_2») (k2 : u2.type = T.«LPAR») (k3 : u3.type = T.«RPAR») :
    Y N.«decorator» (nd "decorator" [tk T.«__ANON_2» u1.text]) (u0 :: (u1 :: (u2 :: [u3]))) n :=
  Y.node ⟨N.«decorator», [T.«AT», T.«__ANON_2», T.«LPAR», T.«RPAR»], "decorator", false, [(1, false, 0)], 0⟩ (by decide +kernel) rfl (by decide) (free_plain (by decide) (by decide)) (cs := [tk T.«AT» u0.text, tk T.«__ANON_2» u1.text, tk T.«LPAR» u2.text, tk T.«RPAR» u3.text]) (by have : YL [T.«AT», T.«__ANON_2», T.«LPAR», T.«RPAR»] [tk T.«AT» u0.text, tk T.«__ANON_2» u1.text, tk T.«LPAR» u2.text, tk T.«RPAR» u3.text] (u0 :: (u1 :: (u2 :: (u3 :: ([]))))) n := (.tok k0 (by decide) (.tok k1 (by decide) (.tok k2 (by decide) (.tok k3 (by decide) .nil)))); simpa only [List.append_assoc, List.nil_append, List.append_nil, List.cons_append, nextT_append, nextT_cons, nextT_nil] using this) (by simp only [keepKids', List.flatMap_cons, List.flatMap_nil, List.replicate_zero, List.replicate_succ, List.getElem?_cons_zero, List.getElem?_cons_succ, Bool.false_eq_true, if_true, if_false, List.append_nil, List.nil_append, List.cons_append, List.append_assoc, kidsOf_nd] <;> rfl)

theorem y_215 {n : Nat} {u0 : Tok} {u1 : Tok} {u2 : Tok} {u3 : Tok} {u4 : Tok} {u5 : Tok} {u6 : Tok} (k0 : u0.type = T.«AT») (k1 : u1.type = T.«__ANON_2») (k2 : u2.type = T.«LPAR») (k3 : u3.type = T.«RPAR») (k4 : u4.type = T.«_CPP_COMMENT_NL») (k5 : u5.type = T.«_CPP_COMMENT_NL») (k6 : u6.type = T.«_CPP_COMMENT_NL») :
    Y N.«decorator» (nd "decorator" [tk T.«__ANON_2» u1.text]) (u0 :: (u1 :: (u2 :: (u3 :: (u4 :: (u5 :: [u6])))))) n :=
  Y.node ⟨N.«decorator», [T.«AT», T.«__ANON_2», T.«LPAR», T.«RPAR», T.«_CPP_COMMENT_NL», T.«_CPP_COMMENT_NL», T.«_CPP_COMMENT_NL»], "decorator", false, [(1, false, 0)], 0⟩ (by decide +kernel) rfl (by decide) (free_plain (by decide) (by decide)) (cs := [tk T.«AT» u0.text, tk T.«__ANON_2» u1.text, tk T.«LPAR» u2.text, tk T.«RPAR» u3.text, tk T.«_CPP_COMMENT_NL» u4.text, tk T.«_CPP_COMMENT_NL» u5.text, tk T.«_CPP_COMMENT_NL» u6.text]) (by have : YL [T.«AT», T.«__ANON_2», T.«LPAR», T.«RPAR», T.«_CPP_COMMENT_NL», T.«_CPP_COMMENT_NL», T.«_CPP_COMMENT_NL»] [tk T.«AT» u0.text, tk T.«__ANON_2» u1.text, tk T.«LPAR» u2.text, tk T.«RPAR» u3.text, tk T.«_CPP_COMMENT_NL» u4.text, tk T.«_CPP_COMMENT_NL» u5.text, tk T.«_CPP_COMMENT_NL» u6.text] (u0 :: (u1 :: (u2 :: (u3 :: (u4 :: (u5 :: (u6 :: ([])))))))) n := (.tok k0 (by decide) (.tok k1 (by decide) (.tok k2 (by decide) (.tok k3 (by decide) (.tok k4 (by decide) (.tok k5 (by decide) (.tok k6 (by decide) .nil))))))); simpa only [List.append_assoc, List.nil_append, List.append_nil, List.cons_append, nextT_append, nextT_cons, nextT_nil] using this) (by simp only [keepKids', List.flatMap_cons, List.flatMap_nil, List.replicate_zero, List.replicate_succ, List.getElem?_cons_zero, List.getElem?_cons_succ, Bool.false_eq_true, if_true, if_false, List.append_nil, List.nil_append, List.cons_append, List.append_assoc, kidsOf_nd] <;> rfl)

theorem y_218 {n : Nat} {u0 : Tok} {u1 : Tok} {u2 : Tok} {u3 : Tok} {u4 : Tok} {u5 : Tok} {u6 : Tok} {u7 : Tok} {u8 : Tok} {u9 : Tok} (k0 : u0.type = T.«AT») (k1 : u1.type = T.«__ANON_2») (k2 : u2.type = T.«LPAR») (k3 : u3.type = T.«RPAR») (k4 : u4.type = T.«_CPP_COMMENT_NL») (k5 : u5.type = T.«_CPP_COMMENT_NL») (k6 : u6.type = T.«_CPP_COMMENT_NL») (k7 : u7.type = T.«_CPP_COMMENT_NL») (k8 : u8.type = T.«_CPP_COMMENT_NL») (k9 : u9.type = T.«_CPP_COMMENT_NL») :
    Y N.«decorator» (nd "decorator" [tk T.«__ANON_2» u1.text]) (u0 :: (u1 :: (u2 :: (u3 :: (u4 :: (u5 :: (u6 :: (u7 :: (u8 :: [u9]))))))))) n :=
  Y.node ⟨N.«decorator», [T.«AT», T.«__ANON_2», T.«LPAR», T.«RPAR», T.«_CPP_COMMENT_NL», T.«_CPP_COMMENT_NL», T.«_CPP_COMMENT_NL», T.«_CPP_COMMENT_NL», T.«_CPP_COMMENT_NL», T.«_CPP_COMMENT_NL»], "decorator", false, [(1, false, 0)], 0⟩ (by decide +kernel) rfl (by decide) (free_plain (by decide) (by decide)) (cs := [tk T.«AT» u0.text, tk T.«__ANON_2» u1.text, tk T.«LPAR» u2.text, tk T.«RPAR» u3.text, tk T.«_CPP_COMMENT_NL» u4.text, tk T.«_CPP_COMMENT_NL» u5.text, tk T.«_CPP_COMMENT_NL» u6.text, tk T.«_CPP_COMMENT_NL» u7.text, tk T.«_CPP_COMMENT_NL» u8.text, tk T.«_CPP_COMMENT_NL» u9.text]) (by have : YL [T.«AT», T.«__ANON_2», T.«LPAR», T.«RPAR», T.«_CPP_COMMENT_NL», T.«_CPP_COMMENT_NL», T.«_CPP_COMMENT_NL», T.«_CPP_COMMENT_NL», T.«_CPP_COMMENT_NL», T.«_CPP_COMMENT_NL»] [tk T.«AT» u0.text, tk T.«__ANON_2» u1.text, tk T.«LPAR» u2.text, tk T.«RPAR» u3.text, tk T.«_CPP_COMMENT_NL» u4.text, tk T.«_CPP_COMMENT_NL» u5.text, tk T.«_CPP_COMMENT_NL» u6.text, tk T.«_CPP_COMMENT_NL» u7.text, tk T.«_CPP_COMMENT_NL» u8.text, tk T.«_CPP_COMMENT_NL» u9.text] (u0 :: (u1 :: (u2 :: (u3 :: (u4 :: (u5 :: (u6 :: (u7 :: (u8 :: (u9 :: ([]))))))))))) n := (.tok k0 (by decide) (.tok k1 (by decide) (.tok k2 (by decide) (.tok k3 (by decide) (.tok k4 (by decide) (.tok k5 (by decide) (.tok k6 (by decide) (.tok k7 (by decide) (.tok k8 (by decide) (.tok k9 (by decide) .nil)))))))))); simpa only [List.append_assoc, List.nil_append, List.append_nil, List.cons_append, nextT_append, nextT_cons, nextT_nil] using this) (by simp only [keepKids', List.flatMap_cons, List.flatMap_nil, List.replicate_zero, List.replicate_succ, List.getElem?_cons_zero, List.getElem?_cons_succ, Bool.false_eq_true, if_true, if_false, List.append_nil, List.nil_append, List.cons_append, List.append_assoc, kidsOf_nd] <;> rfl)

theorem y_221 {n : Nat} {u0 : Tok} {u1 : Tok} {u2 : Tok} {u3 : Tok} {u4 : Tok} {u5 : Tok} {u6 : Tok} {u7 : Tok} {u8 : Tok} {u9 : Tok} {u10 : Tok} {u11 : Tok} {u12 : Tok} (k0 : u0.type = T.«AT») (k1 : u1.type = T.«__ANON_2») (k2 : u2.type = T.«LPAR») (k3 : u3.type = T.«RPAR») (k4 : u4.type = T.«_CPP_COMMENT_NL») (k5 : u5.type = T.«_CPP_COMMENT_NL») (k6 : u6.type = T.«_CPP_COMMENT_NL») (k7 : u7.type = T.«_CPP_COMMENT_NL») (k8 : u8.type = T.«_CPP_COMMENT_NL») (k9 : u9.type = T.«_CPP_COMMENT_NL») (k10 : u10.type = T.«_CPP_COMMENT_NL») (k11 : u11.type = T.«_CPP_COMMENT_NL») (k12 : u12.type = T.«_CPP_COMMENT_NL») :
    Y N.«decorator» (nd "decorator" [tk T.«__ANON_2» u1.text]) (u0 :: (u1 :: (u2 :: (u3 :: (u4 :: (u5 :: (u6 :: (u7 :: (u8 :: (u9 :: (u10 :: (u11 :: [u12])))))))))))) n :=
  Y.node ⟨N.«decorator», [T.«AT», T.«__ANON_2», T.«LPAR», T.«RPAR», T.«_CPP_COMMENT_NL», T.«_CPP_COMMENT_NL», T.«_CPP_COMMENT_NL», T.«_CPP_COMMENT_NL», T.«_CPP_COMMENT_NL», T.«_CPP_COMMENT_NL», T.«_CPP_COMMENT_NL», T.«_CPP_COMMENT_NL», T.«_CPP_COMMENT_NL»], "decorator", false, [(1, false, 0)], 0⟩ (by decide +kernel) rfl (by decide) (free_plain (by decide) (by decide)) (cs := [tk T.«AT» u0.text, tk T.«__ANON_2» u1.text, tk T.«LPAR» u2.text, tk T.«RPAR» u3.text, tk T.«_CPP_COMMENT_NL» u4.text, tk T.«_CPP_COMMENT_NL» u5.text, tk T.«_CPP_COMMENT_NL» u6.text, tk T.«_CPP_COMMENT_NL» u7.text, tk T.«_CPP_COMMENT_NL» u8.text, tk T.«_CPP_COMMENT_NL» u9.text, tk T.«_CPP_COMMENT_NL» u10.text, tk T.«_CPP_COMMENT_NL» u11.text, tk T.«_CPP_COMMENT_NL» u12.text]) (by have : YL [T.«AT», T.«__ANON_2», T.«LPAR», T.«RPAR», T.«_CPP_COMMENT_NL», T.«_CPP_COMMENT_NL», T.«_CPP_COMMENT_NL», T.«_CPP_COMMENT_NL», T.«_CPP_COMMENT_NL», T.«_CPP_COMMENT_NL», T.«_CPP_COMMENT_NL», T.«_CPP_COMMENT_NL», T.«_CPP_COMMENT_NL»] [tk T.«AT» u0.text, tk T.«__ANON_2» u1.text, tk T.«LPAR» u2.text, tk T.«RPAR» u3.text, tk T.«_CPP_COMMENT_NL» u4.text, tk T.«_CPP_COMMENT_NL» u5.text, tk T.«_CPP_COMMENT_NL» u6.text, tk T.«_CPP_COMMENT_NL» u7.text, tk T.«_CPP_COMMENT_NL» u8.text, tk T.«_CPP_COMMENT_NL» u9.text, tk T.«_CPP_COMMENT_NL» u10.text, tk T.«_CPP_COMMENT_NL» u11.text, tk T.«_CPP_COMMENT_NL» u12.text] (u0 :: (u1 :: (u2 :: (u3 :: (u4 :: (u5 :: (u6 :: (u7 :: (u8 :: (u9 :: (u10 :: (u11 :: (u12 :: ([])))))))))))))) n := (.tok k0 (by decide) (.tok k1 (by decide) (.tok k2 (by decide) (.tok k3 (by decide) (.tok k4 (by decide) (.tok k5 (by decide) (.tok k6 (by decide) (.tok k7 (by decide) (.tok k8 (by decide) (.tok k9 (by decide) (.tok k10 (by decide) (.tok k11 (by decide) (.tok k12 (by decide) .nil))))))))))))); simpa only [List.append_assoc, List.nil_append, List.append_nil, List.cons_append, nextT_append, nextT_cons, nextT_nil] using this) (by simp only [keepKids', List.flatMap_cons, List.flatMap_nil, List.replicate_zero, List.replicate_succ, List.getElem?_cons_zero, List.getElem?_cons_succ, Bool.false_eq_true, if_true, if_false, List.append_nil, List.nil_append, List.cons_append, List.append_assoc, kidsOf_nd] <;> rfl)

theorem y_224 {n : Nat} {u0 : Tok} {u1 : Tok} {c2 : Tree} {w2 : List Tok} {t3 : List Tree} {w3 : List Tok} {u4 : Tok} {u5 : Tok} (k0 : u0.type = T.«FUNCTION») (k1 : u1.type = T.«_CPP_COMMENT_NL») (h2 : Y N.«value_brackets» c2 w2 (nextT w3 u4.type)) (h3 : Y N.«__function_star_12» (nd "__function_star_12" t3) w3 u4.type) (k4 : u4.type = T.«_CPP_COMMENT_NL») (k5 : u5.type = T.«RPAR») :
    Y N.«function» (nd "function" (tk T.«FUNCTION» u0.text :: (c2 :: t3))) (u0 :: (u1 :: (w2 ++ (w3 ++ (u4 :: [u5]))))) n :=
  Y.node ⟨N.«function», [T.«FUNCTION», T.«_CPP_COMMENT_NL», N.«value_brackets», N.«__function_star_12», T.«_CPP_COMMENT_NL», T.«RPAR»], "function", false, [(0, false, 0), (2, false, 0), (3, true, 0)], 0⟩ (by decide +kernel) rfl (by decide) (free_plain (by decide) (by decide)) (cs := [tk T.«FUNCTION» u0.text, tk T.«_CPP_COMMENT_NL» u1.text, c2, nd "__function_star_12" t3, tk T.«_CPP_COMMENT_NL» u4.text, tk T.«RPAR» u5.text]) (by have : YL [T.«FUNCTION», T.«_CPP_COMMENT_NL», N.«value_brackets», N.«__function_star_12», T.«_CPP_COMMENT_NL», T.«RPAR»] [tk T.«FUNCTION» u0.text, tk T.«_CPP_COMMENT_NL» u1.text, c2, nd "__function_star_12" t3, tk T.«_CPP_COMMENT_NL» u4.text, tk T.«RPAR» u5.text] (u0 :: (u1 :: (w2 ++ (w3 ++ (u4 :: (u5 :: ([]))))))) n := (.tok k0 (by decide) (.tok k1 (by decide) (.nt (by simpa only [List.append_assoc, List.nil_append, List.append_nil, List.cons_append, nextT_append, nextT_cons, nextT_nil] using h2) (.nt (by simpa only [List.append_assoc, List.nil_append, List.append_nil, List.cons_append, nextT_append, nextT_cons, nextT_nil] using h3) (.tok k4 (by decide) (.tok k5 (by decide) .nil)) (fun h h' => by first | exact absurd h (by decide) | exact absurd h' (by decide))) (fun h h' => by first | exact absurd h (by decide) | exact absurd h' (by decide))))); simpa only [List.append_assoc, List.nil_append, List.append_nil, List.cons_append, nextT_append, nextT_cons, nextT_nil] using this) (by simp only [keepKids', List.flatMap_cons, List.flatMap_nil, List.replicate_zero, List.replicate_succ, List.getElem?_cons_zero, List.getElem?_cons_succ, Bool.false_eq_true, if_true, if_false, List.append_nil, List.nil_append, List.cons_append, List.append_assoc, kidsOf_nd] <;> rfl)

theorem y_227 {n : Nat} {u0 : Tok} {u1 : Tok} {c2 : Tree} {w2 : List Tok} {u3 : Tok} (k0 : u0.type = T.«FUNCTION») (k1 : u1.type = T.«_CPP_COMMENT_NL») (h2 : Y N.«value_brackets» c2 w2 u3.type) (k3 : u3.type = T.«RPAR») :
    Y N.«function» (nd "function" (tk T.«FUNCTION» u0.text :: [c2])) (u0 :: (u1 :: (w2 ++ [u3]))) n :=
  Y.node ⟨N.«function», [T.«FUNCTION», T.«_CPP_COMMENT_NL», N.«value_brackets», T.«RPAR»], "function", false, [(0, false, 0), (2, false, 0)], 0⟩ (by decide +kernel) rfl (by decide) (free_plain (by decide) (by decide)) (cs := [tk T.«FUNCTION» u0.text, tk T.«_CPP_COMMENT_NL» u1.text, c2, tk T.«RPAR» u3.text]) (by have : YL [T.«FUNCTION», T.«_CPP_COMMENT_NL», N.«value_brackets», T.«RPAR»] [tk T.«FUNCTION» u0.text, tk T.«_CPP_COMMENT_NL» u1.text, c2, tk T.«RPAR» u3.text] (u0 :: (u1 :: (w2 ++ (u3 :: ([]))))) n := (.tok k0 (by decide) (.tok k1 (by decide) (.nt (by simpa only [List.append_assoc, List.nil_append, List.append_nil, List.cons_append, nextT_append, nextT_cons, nextT_nil] using h2) (.tok k3 (by decide) .nil) (fun h h' => by first | exact absurd h (by decide) | exact absurd h' (by decide))))); simpa only [List.append_assoc, List.nil_append, List.append_nil, List.cons_append, nextT_append, nextT_cons, nextT_nil] using this) (by simp only [keepKids', List.flatMap_cons, List.flatMap_nil, List.replicate_zero, List.replicate_succ, List.getElem?_cons_zero, List.getElem?_cons_succ, Bool.false_eq_true, if_true, if_false, List.append_nil, List.nil_append, List.cons_append, List.append_assoc, kidsOf_nd] <;> rfl)

theorem y_230 {n : Nat} {u0 : Tok} {u1 : Tok} {u2 : Tok} {u3 : Tok} (k0 : u0.type = T.«FUNCTION») (k1 : u1.type = T.«_CPP_COMMENT_NL») (k2 : u2.type = T.«_CPP_COMMENT_NL») (k3 : u3.type = T.«RPAR») :
    Y N.«function» (nd "function" [tk T.«FUNCTION» u0.text]) (u0 :: (u1 :: (u2 :: [u3]))) n :=
  Y.node ⟨N.«function», [T.«FUNCTION», T.«_CPP_COMMENT_NL», T.«_CPP_COMMENT_NL», T.«RPAR»], "function", false, [(0, false, 0)], 0⟩ (by decide +kernel) rfl (by decide) (free_plain (by decide) (by decide)) (cs := [tk T.«FUNCTION» u0.text, tk T.«_CPP_COMMENT_NL» u1.text, tk T.«_CPP_COMMENT_NL» u2.text, tk T.«RPAR» u3.text]) (by have : YL [T.«FUNCTION», T.«_CPP_COMMENT_NL», T.«_CPP_COMMENT_NL», T.«RPAR»] [tk T.«FUNCTION» u0.text, tk T.«_CPP_COMMENT_NL» u1.text, tk T.«_CPP_COMMENT_NL» u2.text, tk T.«RPAR» u3.text] (u0 :: (u1 :: (u2 :: (u3 :: ([]))))) n := (.tok k0 (by decide) (.tok k1 (by decide) (.tok k2 (by decide) (.tok k3 (by decide) .nil)))); simpa only [List.append_assoc, List.nil_append, List.append_nil, List.cons_append, nextT_append, nextT_cons, nextT_nil] using this) (by simp only [keepKids', List.flatMap_cons, List.flatMap_nil, List.replicate_zero, List.replicate_succ, List.getElem?_cons_zero, List.getElem?_cons_succ, Bool.false_eq_true, if_true, if_false, List.append_nil, List.nil_append, List.cons_append, List.append_assoc, kidsOf_nd] <;> rfl)

theorem y_233 {n : Nat} {u0 : Tok} {c1 : Tree} {w1 : List Tok} {t2 : List Tree} {w2 : List Tok} {u3 : Tok} (k0 : u0.type = T.«FUNCTION») (h1 : Y N.«value_brackets» c1 w1 (nextT w2 u3.type)) (h2 : Y N.«__function_star_12» (nd "__function_star_12" t2) w2 u3.type) (k3 : u3.type = T.«RPAR») :
    Y N.«function» (nd "function" (tk T.«FUNCTION» u0.text :: (c1 :: t2))) (u0 :: (w1 ++ (w2 ++ [u3]))) n :=
  Y.node ⟨N.«function», [T.«FUNCTION», N.«value_brackets», N.«__function_star_12», T.«RPAR»], "function", false, [(0, false, 0), (1, false, 0), (2, true, 0)], 0⟩ (by decide +kernel) rfl (by decide) (free_plain (by decide) (by decide)) (cs := [tk T.«FUNCTION» u0.text, c1, nd "__function_star_12" t2, tk T.«RPAR» u3.text]) (by have : YL [T.«FUNCTION», N.«value_brackets», N.«__function_star_12», T.«RPAR»] [tk T.«FUNCTION» u0.text, c1, nd "__function_star_12" t2, tk T.«RPAR» u3.text] (u0 :: (w1 ++ (w2 ++ (u3 :: ([]))))) n := (.tok k0 (by decide) (.nt (by simpa only [List.append_assoc, List.nil_append, List.append_nil, List.cons_append, nextT_append, nextT_cons, nextT_nil] using h1) (.nt (by simpa only [List.append_assoc, List.nil_append, List.append_nil, List.cons_append, nextT_append, nextT_cons, nextT_nil] using h2) (.tok k3 (by decide) .nil) (fun h h' => by first | exact absurd h (by decide) | exact absurd h' (by decide))) (fun h h' => by first | exact absurd h (by decide) | exact absurd h' (by decide)))); simpa only [List.append_assoc, List.nil_append, List.append_nil, List.cons_append, nextT_append, nextT_cons, nextT_nil] using this) (by simp only [keepKids', List.flatMap_cons, List.flatMap_nil, List.replicate_zero, List.replicate_succ, List.getElem?_cons_zero, List.getElem?_cons_succ, Bool.false_eq_true, if_true, if_false, List.append_nil, List.nil_append, List.cons_append, List.append_assoc, kidsOf_nd] <;> rfl)

theorem y_236 {n : Nat} {u0 : Tok} {t1 : List Tree} {w1 : List Tok} {u2 : Tok} {u3 : Tok} (k0 : u0.type = T.«FUNCTION») (h1 : Y N.«__function_star_12» (nd "__function_star_12" t1) w1 u2.type) (k2 : u2.type = T.«_CPP_COMMENT_NL») (k3 : u3.type = T.«RPAR») :
    Y N.«function» (nd "function" (tk T.«FUNCTION» u0.text :: t1)) (u0 :: (w1 ++ (u2 :: [u3]))) n :=
  Y.node ⟨N.«function», [T.«FUNCTION», N.«__function_star_12», T.«_CPP_COMMENT_NL», T.«RPAR»], "function", false, [(0, false, 0), (1, true, 0)], 0⟩ (by decide +kernel) rfl (by decide) (free_plain (by decide) (by decide)) (cs := [tk T.«FUNCTION» u0.text, nd "__function_star_12" t1, tk T.«_CPP_COMMENT_NL» u2.text, tk T.«RPAR» u3.text]) (by have : YL [T.«FUNCTION», N.«__function_star_12», T.«_CPP_COMMENT_NL», T.«RPAR»] [tk T.«FUNCTION» u0.text, nd "__function_star_12" t1, tk T.«_CPP_COMMENT_NL» u2.text, tk T.«RPAR» u3.text] (u0 :: (w1 ++ (u2 :: (u3 :: ([]))))) n := (.tok k0 (by decide) (.nt (by simpa only [List.append_assoc, List.nil_append, List.append_nil, List.cons_append, nextT_append, nextT_cons, nextT_nil] using h1) (.tok k2 (by decide) (.tok k3 (by decide) .nil)) (fun h h' => by first | exact absurd h (by decide) | exact absurd h' (by decide)))); simpa only [List.append_assoc, List.nil_append, List.append_nil, List.cons_append, nextT_append, nextT_cons, nextT_nil] using this) (by simp only [keepKids', List.flatMap_cons, List.flatMap_nil, List.replicate_zero, List.replicate_succ, List.getElem?_cons_zero, List.getElem?_cons_succ, Bool.false_eq_true, if_true, if_false, List.append_nil, List.nil_append, List.cons_append, List.append_assoc, kidsOf_nd] <;> rfl)

theorem y_239 {n : Nat} {c0 : Tree} {w0 : List Tok} (h0 : Y N.«operator_comparison» c0 w0 n) :
    Y N.«operator» (nd "operator" [c0]) w0 n :=
  Y.node ⟨N.«operator», [N.«operator_comparison»], "operator", false, [(0, false, 0)], 0⟩ (by decide +kernel) rfl (by decide) (free_plain (by decide) (by decide)) (cs := [c0]) (by have : YL [N.«operator_comparison»] [c0] (w0 ++ ([])) n := (.nt (by simpa only [List.append_assoc, List.nil_append, List.append_nil, List.cons_append, nextT_append, nextT_cons, nextT_nil] using h0) .nil (fun h h' => by first | exact absurd h (by decide) | exact absurd h' (by decide))); simpa only [List.append_assoc, List.nil_append, List.append_nil, List.cons_append, nextT_append, nextT_cons, nextT_nil] using this) (by simp only [keepKids', List.flatMap_cons, List.flatMap_nil, List.replicate_zero, List.replicate_succ, List.getElem?_cons_zero, List.getElem?_cons_succ, Bool.false_eq_true, if_true, if_false, List.append_nil, List.nil_append, List.cons_append, List.append_assoc, kidsOf_nd] <;> rfl)

theorem y_242 {n : Nat} {c0 : Tree} {w0 : List Tok} (h0 : Y N.«operator_accessor» c0 w0 n) :
    Y N.«operator» (nd "operator" [c0]) w0 n :=
  Y.node ⟨N.«operator», [N.«operator_accessor»], "operator", false, [(0, false, 0)], 0⟩ (by decide +kernel) rfl (by decide) (free_plain (by decide) (by decide)) (cs := [c0]) (by have : YL [N.«operator_accessor»] [c0] (w0 ++ ([])) n := (.nt (by simpa only [List.append_assoc, List.nil_append, List.append_nil, List.cons_append, nextT_append, nextT_cons, nextT_nil] using h0) .nil (fun h h' => by first | exact absurd h (by decide) | exact absurd h' (by decide))); simpa only [List.append_assoc, List.nil_append, List.append_nil, List.cons_append, nextT_append, nextT_cons, nextT_nil] using this) (by simp only [keepKids', List.flatMap_cons, List.flatMap_nil, List.replicate_zero, List.replicate_succ, List.getElem?_cons_zero, List.getElem?_cons_succ, Bool.false_eq_true, if_true, if_false, List.append_nil, List.nil_append, List.cons_append, List.append_assoc, kidsOf_nd] <;> rfl)

theorem y_245 {n : Nat} {c0 : Tree} {w0 : List Tok} (h0 : Y N.«less_than_or_equals» c0 w0 n) (hm : isMeta c0 = false) :
    Y N.«operator_comparison» (c0) w0 n :=
  Y.ex ⟨N.«operator_comparison», [N.«less_than_or_equals»], "operator_comparison", true, [(0, false, 0)], 0⟩ (by decide +kernel) rfl (by decide) (free_plain (by decide) (by decide)) (cs := [c0]) (by have : YL [N.«less_than_or_equals»] [c0] (w0 ++ ([])) n := (.nt (by simpa only [List.append_assoc, List.nil_append, List.append_nil, List.cons_append, nextT_append, nextT_cons, nextT_nil] using h0) .nil (fun h h' => by first | exact absurd h (by decide) | exact absurd h' (by decide))); simpa only [List.append_assoc, List.nil_append, List.append_nil, List.cons_append, nextT_append, nextT_cons, nextT_nil] using this) (by simp only [keepKids', List.flatMap_cons, List.flatMap_nil, List.replicate_zero, List.replicate_succ, List.getElem?_cons_zero, List.getElem?_cons_succ, Bool.false_eq_true, if_true, if_false, List.append_nil, List.nil_append, List.cons_append, List.append_assoc, kidsOf_nd] <;> rfl) hm

theorem y_248 {n : Nat} {c0 : Tree} {w0 : List Tok} (h0 : Y N.«not_equals» c0 w0 n) (hm : isMeta c0 = false) :
    Y N.«operator_comparison» (c0) w0 n :=
  Y.ex ⟨N.«operator_comparison», [N.«not_equals»], "operator_comparison", true, [(0, false, 0)], 0⟩ (by decide +kernel) rfl (by decide) (free_plain (by decide) (by decide)) (cs := [c0]) (by have : YL [N.«not_equals»] [c0] (w0 ++ ([])) n := (.nt (by simpa only [List.append_assoc, List.nil_append, List.append_nil, List.cons_append, nextT_append, nextT_cons, nextT_nil] using h0) .nil (fun h h' => by first | exact absurd h (by decide) | exact absurd h' (by decide))); simpa only [List.append_assoc, List.nil_append, List.append_nil, List.cons_append, nextT_append, nextT_cons, nextT_nil] using this) (by simp only [keepKids', List.flatMap_cons, List.flatMap_nil, List.replicate_zero, List.replicate_succ, List.getElem?_cons_zero, List.getElem?_cons_succ, Bool.false_eq_true, if_true, if_false, List.append_nil, List.nil_append, List.cons_append, List.append_assoc, kidsOf_nd] <;> rfl) hm

theorem y_251 {n : Nat} {c0 : Tree} {w0 : List Tok} {u1 : Tok} {c2 : Tree} {w2 : List Tok} (h0 : Y N.«value_brackets» c0 w0 u1.type) (k1 : u1.type = T.«__ANON_3») (h2 : Y N.«value_brackets» c2 w2 n) (hn : NoInfix n) :
    Y N.«greater_than_or_equals» (nd "greater_than_or_equals" (c0 :: [c2])) (w0 ++ (u1 :: w2)) n :=
  Y.node ⟨N.«greater_than_or_equals», [N.«value_brackets», T.«__ANON_3», N.«value_brackets»], "greater_than_or_equals", false, [(0, false, 0), (2, false, 0)], 0⟩ (by decide +kernel) rfl (by decide) (free_infix (by decide) hn) (cs := [c0, tk T.«__ANON_3» u1.text, c2]) (by have : YL [N.«value_brackets», T.«__ANON_3», N.«value_brackets»] [c0, tk T.«__ANON_3» u1.text, c2] (w0 ++ (u1 :: (w2 ++ ([])))) n := (.nt (by simpa only [List.append_assoc, List.nil_append, List.append_nil, List.cons_append, nextT_append, nextT_cons, nextT_nil] using h0) (.tok k1 (by decide) (.nt (by simpa only [List.append_assoc, List.nil_append, List.append_nil, List.cons_append, nextT_append, nextT_cons, nextT_nil] using h2) .nil (fun h h' => by first | exact absurd h (by decide) | exact absurd h' (by decide)))) (fun h h' => by first | exact absurd h (by decide) | exact absurd h' (by decide))); simpa only [List.append_assoc, List.nil_append, List.append_nil, List.cons_append, nextT_append, nextT_cons, nextT_nil] using this) (by simp only [keepKids', List.flatMap_cons, List.flatMap_nil, List.replicate_zero, List.replicate_succ, List.getElem?_cons_zero, List.getElem?_cons_succ, Bool.false_eq_true, if_true, if_false, List.append_nil, List.nil_append, List.cons_append, List.append_assoc, kidsOf_nd] <;> rfl)

theorem y_254 {n : Nat} {c0 : Tree} {w0 : List Tok} {u1 : Tok} {c2 : Tree} {w2 : List Tok} (h0 : Y N.«value_brackets» c0 w0 u1.type) (k1 : u1.type = T.«LESSTHAN») (h2 : Y N.«value_brackets» c2 w2 n) (hn : NoInfix n) :
    Y N.«less_than» (nd "less_than" (c0 :: [c2])) (w0 ++ (u1 :: w2)) n :=
  Y.node ⟨N.«less_than», [N.«value_brackets», T.«LESSTHAN», N.«value_brackets»], "less_than", false, [(0, false, 0), (2, false, 0)], 0⟩ (by decide +kernel) rfl (by decide) (free_infix (by decide) hn) (cs := [c0, tk T.«LESSTHAN» u1.text, c2]) (by have : YL [N.«value_brackets», T.«LESSTHAN», N.«value_brackets»] [c0, tk T.«LESSTHAN» u1.text, c2] (w0 ++ (u1 :: (w2 ++ ([])))) n := (.nt (by simpa only [List.append_assoc, List.nil_append, List.append_nil, List.cons_append, nextT_append, nextT_cons, nextT_nil] using h0) (.tok k1 (by decide) (.nt (by simpa only [List.append_assoc, List.nil_append, List.append_nil, List.cons_append, nextT_append, nextT_cons, nextT_nil] using h2) .nil (fun h h' => by first | exact absurd h (by decide) | exact absurd h' (by decide)))) (fun h h' => by first | exact absurd h (by decide) | exact absurd h' (by decide))); simpa only [List.append_assoc, List.nil_append, List.append_nil, List.cons_append, nextT_append, nextT_cons, nextT_nil] using this) (by simp only [keepKids', List.flatMap_cons, List.flatMap_nil, List.replicate_zero, List.replicate_succ, List.getElem?_cons_zero, List.getElem?_cons_succ, Bool.false_eq_true, if_true, if_false, List.append_nil, List.nil_append, List.cons_append, List.append_assoc, kidsOf_nd] <;> rfl)

theorem y_257 {n : Nat} {c0 : Tree} {w0 : List Tok} {u1 : Tok} {c2 : Tree} {w2 : List Tok} (h0 : Y N.«value_brackets» c0 w0 u1.type) (k1 : u1.type = T.«__ANON_7») (h2 : Y N.«value_brackets» c2 w2 n) (hn : NoInfix n) :
    Y N.«equals_case_insens» (nd "equals_case_insens" (c0 :: [c2])) (w0 ++ (u1 :: w2)) n :=
  Y.node ⟨N.«equals_case_insens», [N.«value_brackets», T.«__ANON_7», N.«value_brackets»], "equals_case_insens", false, [(0, false, 0), (2, false, 0)], 0⟩ (by decide +kernel) rfl (by decide) (free_infix (by decide) hn) (cs := [c0, tk T.«__ANON_7» u1.text, c2]) (by have : YL [N.«value_brackets», T.«__ANON_7», N.«value_brackets»] [c0, tk T.«__ANON_7» u1.text, c2] (w0 ++ (u1 :: (w2 ++ ([])))) n := (.nt (by simpa only [List.append_assoc, List.nil_append, List.append_nil, List.cons_append, nextT_append, nextT_cons, nextT_nil] using h0) (.tok k1 (by decide) (.nt (by simpa only [List.append_assoc, List.nil_append, List.append_nil, List.cons_append, nextT_append, nextT_cons, nextT_nil] using h2) .nil (fun h h' => by first | exact absurd h (by decide) | exact absurd h' (by decide)))) (fun h h' => by first | exact absurd h (by decide) | exact absurd h' (by decide))); simpa only [List.append_assoc, List.nil_append, List.append_nil, List.cons_append, nextT_append, nextT_cons, nextT_nil] using this) (by simp only [keepKids', List.flatMap_cons, List.flatMap_nil, List.replicate_zero, List.replicate_succ, List.getElem?_cons_zero, List.getElem?_cons_succ, Bool.false_eq_true, if_true, if_false, List.append_nil, List.nil_append, List.cons_append, List.append_assoc, kidsOf_nd] <;> rfl)

theorem y_260 {n : Nat} {c0 : Tree} {w0 : List Tok} (h0 : Y N.«or_op» c0 w0 n) (hm : isMeta c0 = false) :
    Y N.«operator_logical» (c0) w0 n :=
  Y.ex ⟨N.«operator_logical», [N.«or_op»], "operator_logical", true, [(0, false, 0)], 0⟩ (by decide +kernel) rfl (by decide) (free_plain (by decide) (by decide)) (cs := [c0]) (by have : YL [N.«or_op»] [c0] (w0 ++ ([])) n := (.nt (by simpa only [List.append_assoc, List.nil_append, List.append_nil, List.cons_append, nextT_append, nextT_cons, nextT_nil] using h0) .nil (fun h h' => by first | exact absurd h (by decide) | exact absurd h' (by decide))); simpa only [List.append_assoc, List.nil_append, List.append_nil, List.cons_append, nextT_append, nextT_cons, nextT_nil] using this) (by simp only [keepKids', List.flatMap_cons, List.flatMap_nil, List.replicate_zero, List.replicate_succ, List.getElem?_cons_zero, List.getElem?_cons_succ, Bool.false_eq_true, if_true, if_false, List.append_nil, List.nil_append, List.cons_append, List.append_assoc, kidsOf_nd] <;> rfl) hm

theorem y_263 {n : Nat} {c0 : Tree} {w0 : List Tok} (h0 : Y N.«conditional» c0 w0 n) (hm : isMeta c0 = false) :
    Y N.«operator_logical» (c0) w0 n :=
  Y.ex ⟨N.«operator_logical», [N.«conditional»], "operator_logical", true, [(0, false, 0)], 0⟩ (by decide +kernel) rfl (by decide) (free_plain (by decide) (by decide)) (cs := [c0]) (by have : YL [N.«conditional»] [c0] (w0 ++ ([])) n := (.nt (by simpa only [List.append_assoc, List.nil_append, List.append_nil, List.cons_append, nextT_append, nextT_cons, nextT_nil] using h0) .nil (fun h h' => by first | exact absurd h (by decide) | exact absurd h' (by decide))); simpa only [List.append_assoc, List.nil_append, List.append_nil, List.cons_append, nextT_append, nextT_cons, nextT_nil] using this) (by simp only [keepKids', List.flatMap_cons, List.flatMap_nil, List.replicate_zero, List.replicate_succ, List.getElem?_cons_zero, List.getElem?_cons_succ, Bool.false_eq_true, if_true, if_false, List.append_nil, List.nil_append, List.cons_append, List.append_assoc, kidsOf_nd] <;> rfl) hm

theorem y_266 {n : Nat} {u0 : Tok} {c1 : Tree} {w1 : List Tok} (k0 : u0.type = T.«BANG») (h1 : Y N.«value_brackets» c1 w1 n) (hn : NoInfix n) :
    Y N.«not_op» (nd "not_op" [c1]) (u0 :: w1) n :=
  Y.node ⟨N.«not_op», [T.«BANG», N.«value_brackets»], "not_op", false, [(1, false, 0)], 0⟩ (by decide +kernel) rfl (by decide) (free_infix (by decide) hn) (cs := [tk T.«BANG» u0.text, c1]) (by have : YL [T.«BANG», N.«value_brackets»] [tk T.«BANG» u0.text, c1] (u0 :: (w1 ++ ([]))) n := (.tok k0 (by decide) (.nt (by simpa only [List.append_assoc, List.nil_append, List.append_nil, List.cons_append, nextT_append, nextT_cons, nextT_nil] using h1) .nil (fun h h' => by first | exact absurd h (by decide) | exact absurd h' (by decide)))); simpa only [List.append_assoc, List.nil_append, List.append_nil, List.cons_append, nextT_append, nextT_cons, nextT_nil] using this) (by simp only [keepKids', List.flatMap_cons, List.flatMap_nil, List.replicate_zero, List.replicate_succ, List.getElem?_cons_zero, List.getElem?_cons_succ, Bool.false_eq_true, if_true, if_false, List.append_nil, List.nil_append, List.cons_append, List.append_assoc, kidsOf_nd] <;> rfl)

theorem y_269 {n : Nat} {c0 : Tree} {w0 : List Tok} (h0 : Y N.«add» c0 w0 n) (hm : isMeta c0 = false) :
    Y N.«operator_numeric» (c0) w0 n :=
  Y.ex ⟨N.«operator_numeric», [N.«add»], "operator_numeric", true, [(0, false, 0)], 0⟩ (by decide +kernel) rfl (by decide) (free_plain (by decide) (by decide)) (cs := [c0]) (by have : YL [N.«add»] [c0] (w0 ++ ([])) n := (.nt (by simpa only [List.append_assoc, List.nil_append, List.append_nil, List.cons_append, nextT_append, nextT_cons, nextT_nil] using h0) .nil (fun h h' => by first | exact absurd h (by decide) | exact absurd h' (by decide))); simpa only [List.append_assoc, List.nil_append, List.append_nil, List.cons_append, nextT_append, nextT_cons, nextT_nil] using this) (by simp only [keepKids', List.flatMap_cons, List.flatMap_nil, List.replicate_zero, List.replicate_succ, List.getElem?_cons_zero, List.getElem?_cons_succ, Bool.false_eq_true, if_true, if_false, List.append_nil, List.nil_append, List.cons_append, List.append_assoc, kidsOf_nd] <;> rfl) hm

theorem y_272 {n : Nat} {c0 : Tree} {w0 : List Tok} (h0 : Y N.«modulo» c0 w0 n) (hm : isMeta c0 = false) :
    Y N.«operator_numeric» (c0) w0 n :=
  Y.ex ⟨N.«operator_numeric», [N.«modulo»], "operator_numeric", true, [(0, false, 0)], 0⟩ (by decide +kernel) rfl (by decide) (free_plain (by decide) (by decide)) (cs := [c0]) (by have : YL [N.«modulo»] [c0] (w0 ++ ([])) n := (.nt (by simpa only [List.append_assoc, List.nil_append, List.append_nil, List.cons_append, nextT_append, nextT_cons, nextT_nil] using h0) .nil (fun h h' => by first | exact absurd h (by decide) | exact absurd h' (by decide))); simpa only [List.append_assoc, List.nil_append, List.append_nil, List.cons_append, nextT_append, nextT_cons, nextT_nil] using this) (by simp only [keepKids', List.flatMap_cons, List.flatMap_nil, List.replicate_zero, List.replicate_succ, List.getElem?_cons_zero, List.getElem?_cons_succ, Bool.false_eq_true, if_true, if_false, List.append_nil, List.nil_append, List.cons_append, List.append_assoc, kidsOf_nd] <;> rfl) hm

theorem y_275 {n : Nat} {c0 : Tree} {w0 : List Tok} {u1 : Tok} {c2 : Tree} {w2 : List Tok} (h0 : Y N.«value_brackets» c0 w0 u1.type) (k1 : u1.type = T.«PLUS») (h2 : Y N.«value_brackets» c2 w2 n) (hn : NoInfix n) :
    Y N.«add» (nd "add" (c0 :: [c2])) (w0 ++ (u1 :: w2)) n :=
  Y.node ⟨N.«add», [N.«value_brackets», T.«PLUS», N.«value_brackets»], "add", false, [(0, false, 0), (2, false, 0)], 0⟩ (by decide +kernel) rfl (by decide) (free_infix (by decide) hn) (cs := [c0, tk T.«PLUS» u1.text, c2]) (by have : YL [N.«value_brackets», T.«PLUS», N.«value_brackets»] [c0, tk T.«PLUS» u1.text, c2] (w0 ++ (u1 :: (w2 ++ ([])))) n := (.nt (by simpa only [List.append_assoc, List.nil_append, List.append_nil, List.cons_append, nextT_append, nextT_cons, nextT_nil] using h0) (.tok k1 (by decide) (.nt (by simpa only [List.append_assoc, List.nil_append, List.append_nil, List.cons_append, nextT_append, nextT_cons, nextT_nil] using h2) .nil (fun h h' => by first | exact absurd h (by decide) | exact absurd h' (by decide)))) (fun h h' => by first | exact absurd h (by decide) | exact absurd h' (by decide))); simpa only [List.append_assoc, List.nil_append, List.append_nil, List.cons_append, nextT_append, nextT_cons, nextT_nil] using this) (by simp only [keepKids', List.flatMap_cons, List.flatMap_nil, List.replicate_zero, List.replicate_succ, List.getElem?_cons_zero, List.getElem?_cons_succ, Bool.false_eq_true, if_true, if_false, List.append_nil, List.nil_append, List.cons_append, List.append_assoc, kidsOf_nd] <;> rfl)

theorem y_278 {n : Nat} {c0 : Tree} {w0 : List Tok} {u1 : Tok} {c2 : Tree} {w2 : List Tok} (h0 : Y N.«value_brackets» c0 w0 u1.type) (k1 : u1.type = T.«PERCENT») (h2 : Y N.«value_brackets» c2 w2 n) (hn : NoInfix n) :
    Y N.«modulo» (nd "modulo" (c0 :: [c2])) (w0 ++ (u1 :: w2)) n :=
  Y.node ⟨N.«modulo», [N.«value_brackets», T.«PERCENT», N.«value_brackets»], "modulo", false, [(0, false, 0), (2, false, 0)], 0⟩ (by decide +kernel) rfl (by decide) (free_infix (by decide) hn) (cs := [c0, tk T.«PERCENT» u1.text, c2]) (by have : YL [N.«value_brackets», T.«PERCENT», N.«value_brackets»] [c0, tk T.«PERCENT» u1.text, c2] (w0 ++ (u1 :: (w2 ++ ([])))) n := (.nt (by simpa only [List.append_assoc, List.nil_append, List.append_nil, List.cons_append, nextT_append, nextT_cons, nextT_nil] using h0) (.tok k1 (by decide) (.nt (by simpa only [List.append_assoc, List.nil_append, List.append_nil, List.cons_append, nextT_append, nextT_cons, nextT_nil] using h2) .nil (fun h h' => by first | exact absurd h (by decide) | exact absurd h' (by decide)))) (fun h h' => by first | exact absurd h (by decide) | exact absurd h' (by decide))); simpa only [List.append_assoc, List.nil_append, List.append_nil, List.cons_append, nextT_append, nextT_cons, nextT_nil] using this) (by simp only [keepKids', List.flatMap_cons, List.flatMap_nil, List.replicate_zero, List.replicate_succ, List.getElem?_cons_zero, List.getElem?_cons_succ, Bool.false_eq_true, if_true, if_false, List.append_nil, List.nil_append, List.cons_append, List.append_assoc, kidsOf_nd] <;> rfl)

theorem y_281 {n : Nat} {c0 : Tree} {w0 : List Tok} (h0 : Y N.«index_accessor» c0 w0 n) (hm : isMeta c0 = false) :
    Y N.«operator_accessor» (c0) w0 n :=
  Y.ex ⟨N.«operator_accessor», [N.«index_accessor»], "operator_accessor", true, [(0, false, 0)], 0⟩ (by decide +kernel) rfl (by decide) (free_plain (by decide) (by decide)) (cs := [c0]) (by have : YL [N.«index_accessor»] [c0] (w0 ++ ([])) n := (.nt (by simpa only [List.append_assoc, List.nil_append, List.append_nil, List.cons_append, nextT_append, nextT_cons, nextT_nil] using h0) .nil (fun h h' => by first | exact absurd h (by decide) | exact absurd h' (by decide))); simpa only [List.append_assoc, List.nil_append, List.append_nil, List.cons_append, nextT_append, nextT_cons, nextT_nil] using this) (by simp only [keepKids', List.flatMap_cons, List.flatMap_nil, List.replicate_zero, List.replicate_succ, List.getElem?_cons_zero, List.getElem?_cons_succ, Bool.false_eq_true, if_true, if_false, List.append_nil, List.nil_append, List.cons_append, List.append_assoc, kidsOf_nd] <;> rfl) hm

theorem y_284 {n : Nat} {c0 : Tree} {w0 : List Tok} (h0 : Y N.«property_accessor» c0 w0 n) (hm : isMeta c0 = false) :
    Y N.«operator_accessor» (c0) w0 n :=
  Y.ex ⟨N.«operator_accessor», [N.«property_accessor»], "operator_accessor", true, [(0, false, 0)], 0⟩ (by decide +kernel) rfl (by decide) (free_plain (by decide) (by decide)) (cs := [c0]) (by have : YL [N.«property_accessor»] [c0] (w0 ++ ([])) n := (.nt (by simpa only [List.append_assoc, List.nil_append, List.append_nil, List.cons_append, nextT_append, nextT_cons, nextT_nil] using h0) .nil (fun h h' => by first | exact absurd h (by decide) | exact absurd h' (by decide))); simpa only [List.append_assoc, List.nil_append, List.append_nil, List.cons_append, nextT_append, nextT_cons, nextT_nil] using this) (by simp only [keepKids', List.flatMap_cons, List.flatMap_nil, List.replicate_zero, List.replicate_succ, List.getElem?_cons_zero, List.getElem?_cons_succ, Bool.false_eq_true, if_true, if_false, List.append_nil, List.nil_append, List.cons_append, List.append_assoc, kidsOf_nd] <;> rfl) hm

theorem y_287 {n : Nat} {c0 : Tree} {w0 : List Tok} {u1 : Tok} {u2 : Tok} {u3 : Tok} {c4 : Tree} {w4 : List Tok} {t5 : List Tree} {w5 : List Tok} {u6 : Tok} (h0 : Y N.«value_brackets» c0 w0 u1.type) (k1 : u1.type = T.«DOT») (k2 : u2.type = T.«LIST_FUNC_NAME») (k3 : u3.type = T.«LPAR») (h4 : Y N.«value_brackets» c4 w4 (nextT w5 u6.type)) (h5 : Y N.«__function_accessor_plus_13» (nd "__function_accessor_plus_13" t5) w5 u6.type) (k6 : u6.type = T.«RPAR») :
    Y N.«function_accessor» (nd "function_accessor" (c0 :: (tk T.«LIST_FUNC_NAME» u2.text :: (c4 :: t5)))) (w0 ++ (u1 :: (u2 :: (u3 :: (w4 ++ (w5 ++ [u6])))))) n :=
  Y.node ⟨N.«function_accessor», [N.«value_brackets», T.«DOT», T.«LIST_FUNC_NAME», T.«LPAR», N.«value_brackets», N.«__function_accessor_plus_13», T.«RPAR»], "function_accessor", false, [(0, false, 0), (2, false, 0), (4, false, 0), (5, true, 0)], 0⟩ (by decide +kernel) rfl (by decide) (free_plain (by decide) (by decide)) (cs := [c0, tk T.«DOT» u1.text, tk T.«LIST_FUNC_NAME» u2.text, tk T.«LPAR» u3.text, c4, nd "__function_accessor_plus_13" t5, tk T.«RPAR» u6.text]) (by have : YL [N.«value_brackets», T.«DOT», T.«LIST_FUNC_NAME», T.«LPAR», N.«value_brackets», N.«__function_accessor_plus_13», T.«RPAR»] [c0, tk T.«DOT» u1.text, tk T.«LIST_FUNC_NAME» u2.text, tk T.«LPAR» u3.text, c4, nd "__function_accessor_plus_13" t5, tk T.«RPAR» u6.text] (w0 ++ (u1 :: (u2 :: (u3 :: (w4 ++ (w5 ++ (u6 :: ([])))))))) n := (.nt (by simpa only [List.append_assoc, List.nil_append, List.append_nil, List.cons_append, nextT_append, nextT_cons, nextT_nil] using h0) (.tok k1 (by decide) (.tok k2 (by decide) (.tok k3 (by decide) (.nt (by simpa only [List.append_assoc, List.nil_append, List.append_nil, List.cons_append, nextT_append, nextT_cons, nextT_nil] using h4) (.nt (by simpa only [List.append_assoc, List.nil_append, List.append_nil, List.cons_append, nextT_append, nextT_cons, nextT_nil] using h5) (.tok k6 (by decide) .nil) (fun h h' => by first | exact absurd h (by decide) | exact absurd h' (by decide))) (fun h h' => by first | exact absurd h (by decide) | exact absurd h' (by decide)))))) (fun h h' => by first | exact absurd h (by decide) | exact absurd h' (by decide))); simpa only [List.append_assoc, List.nil_append, List.append_nil, List.cons_append, nextT_append, nextT_cons, nextT_nil] using this) (by simp only [keepKids', List.flatMap_cons, List.flatMap_nil, List.replicate_zero, List.replicate_succ, List.getElem?_cons_zero, List.getElem?_cons_succ, Bool.false_eq_true, if_true, if_false, List.append_nil, List.nil_append, List.cons_append, List.append_assoc, kidsOf_nd] <;> rfl)

theorem y_290 {n : Nat} {c0 : Tree} {w0 : List Tok} {u1 : Tok} {u2 : Tok} {c3 : Tree} {w3 : List Tok} (h0 : Y N.«value_brackets» c0 w0 u1.type) (k1 : u1.type = T.«DOT») (k2 : u2.type = T.«QMARK») (h3 : Y N.«value_brackets» c3 w3 n) (hn : NoInfix n) :
    Y N.«property_accessor» (nd "property_accessor" (c0 :: [c3])) (w0 ++ (u1 :: (u2 :: w3))) n :=
  Y.node ⟨N.«property_accessor», [N.«value_brackets», T.«DOT», T.«QMARK», N.«value_brackets»], "property_accessor", false, [(0, false, 0), (3, false, 0)], 0⟩ (by decide +kernel) rfl (by decide) (free_infix (by decide) hn) (cs := [c0, tk T.«DOT» u1.text, tk T.«QMARK» u2.text, c3]) (by have : YL [N.«value_brackets», T.«DOT», T.«QMARK», N.«value_brackets»] [c0, tk T.«DOT» u1.text, tk T.«QMARK» u2.text, c3] (w0 ++ (u1 :: (u2 :: (w3 ++ ([]))))) n := (.nt (by simpa only [List.append_assoc, List.nil_append, List.append_nil, List.cons_append, nextT_append, nextT_cons, nextT_nil] using h0) (.tok k1 (by decide) (.tok k2 (by decide) (.nt (by simpa only [List.append_assoc, List.nil_append, List.append_nil, List.cons_append, nextT_append, nextT_cons, nextT_nil] using h3) .nil (fun h h' => by first | exact absurd h (by decide) | exact absurd h' (by decide))))) (fun h h' => by first | exact absurd h (by decide) | exact absurd h' (by decide))); simpa only [List.append_assoc, List.nil_append, List.append_nil, List.cons_append, nextT_append, nextT_cons, nextT_nil] using this) (by simp only [keepKids', List.flatMap_cons, List.flatMap_nil, List.replicate_zero, List.replicate_succ, List.getElem?_cons_zero, List.getElem?_cons_succ, Bool.false_eq_true, if_true, if_false, List.append_nil, List.nil_append, List.cons_append, List.append_assoc, kidsOf_nd] <;> rfl)

theorem y_293 {n : Nat} {c0 : Tree} {w0 : List Tok} (h0 : Y N.«element» c0 w0 n) (hn : n ≠ T._CPP_COMMENT_NL) :
    Y N.«__start_star_0» (nd "__start_star_0" [c0]) w0 n :=
  Y.node ⟨N.«__start_star_0», [N.«element»], "__start_star_0", false, [(0, false, 0)], 0⟩ (by decide +kernel) rfl (by decide) (by unfold badNode badReduce; rw [beq_false hn]; rfl) (cs := [c0]) (by have : YL [N.«element»] [c0] (w0 ++ ([])) n := (.nt (by simpa only [List.append_assoc, List.nil_append, List.append_nil, List.cons_append, nextT_append, nextT_cons, nextT_nil] using h0) .nil (fun h h' => by first | exact absurd h (by decide) | exact absurd h' (by decide))); simpa only [List.append_assoc, List.nil_append, List.append_nil, List.cons_append, nextT_append, nextT_cons, nextT_nil] using this) (by simp only [keepKids', List.flatMap_cons, List.flatMap_nil, List.replicate_zero, List.replicate_succ, List.getElem?_cons_zero, List.getElem?_cons_succ, Bool.false_eq_true, if_true, if_false, List.append_nil, List.nil_append, List.cons_append, List.append_assoc, kidsOf_nd] <;> rfl)

theorem y_296 {n : Nat} {t0 : List Tree} {w0 : List Tok} {c1 : Tree} {w1 : List Tok} (h0 : Y N.«__start_star_0» (nd "__start_star_0" t0) w0 (nextT w1 n)) (h1 : Y N.«element» c1 w1 n) (hn : n ≠ T._CPP_COMMENT_NL) :
    Y N.«__start_star_0» (nd "__start_star_0" (t0 ++ [c1])) (w0 ++ w1) n :=
  Y.node ⟨N.«__start_star_0», [N.«__start_star_0», N.«element»], "__start_star_0", false, [(0, true, 0), (1, false, 0)], 0⟩ (by decide +kernel) rfl (by decide) (by unfold badNode badReduce; rw [beq_false hn]; rfl) (cs := [nd "__start_star_0" t0, c1]) (by have : YL [N.«__start_star_0», N.«element»] [nd "__start_star_0" t0, c1] (w0 ++ (w1 ++ ([]))) n := (.nt (by simpa only [List.append_assoc, List.nil_append, List.append_nil, List.cons_append, nextT_append, nextT_cons, nextT_nil] using h0) (.nt (by simpa only [List.append_assoc, List.nil_append, List.append_nil, List.cons_append, nextT_append, nextT_cons, nextT_nil] using h1) .nil (fun h h' => by first | exact absurd h (by decide) | exact absurd h' (by decide))) (fun h h' => by first | exact absurd h (by decide) | exact absurd h' (by decide))); simpa only [List.append_assoc, List.nil_append, List.append_nil, List.cons_append, nextT_append, nextT_cons, nextT_nil] using this) (by simp only [keepKids', List.flatMap_cons, List.flatMap_nil, List.replicate_zero, List.replicate_succ, List.getElem?_cons_zero, List.getElem?_cons_succ, Bool.false_eq_true, if_true, if_false, List.append_nil, List.nil_append, List.cons_append, List.append_assoc, kidsOf_nd] <;> rfl)

theorem y_299 {n : Nat} {t0 : List Tree} {w0 : List Tok} {u1 : Tok} {c2 : Tree} {w2 : List Tok} (h0 : Y N.«___import_statement_star_1» (nd "___import_statement_star_1" t0) w0 u1.type) (k1 : u1.type = T.«COMMA») (h2 : Y N.«import_alias» c2 w2 n) :
    Y N.«___import_statement_star_1» (nd "___import_statement_star_1" (t0 ++ [c2])) (w0 ++ (u1 :: w2)) n :=
  Y.node ⟨N.«___import_statement_star_1», [N.«___import_statement_star_1», T.«COMMA», N.«import_alias»], "___import_statement_star_1", false, [(0, true, 0), (2, false, 0)], 0⟩ (by decide +kernel) rfl (by decide) (free_plain (by decide) (by decide)) (cs := [nd "___import_statement_star_1" t0, tk T.«COMMA» u1.text, c2]) (by have : YL [N.«___import_statement_star_1», T.«COMMA», N.«import_alias»] [nd "___import_statement_star_1" t0, tk T.«COMMA» u1.text, c2] (w0 ++ (u1 :: (w2 ++ ([])))) n := (.nt (by simpa only [List.append_assoc, List.nil_append, List.append_nil, List.cons_append, nextT_append, nextT_cons, nextT_nil] using h0) (.tok k1 (by decide) (.nt (by simpa only [List.append_assoc, List.nil_append, List.append_nil, List.cons_append, nextT_append, nextT_cons, nextT_nil] using h2) .nil (fun h h' => by first | exact absurd h (by decide) | exact absurd h' (by decide)))) (fun h h' => by first | exact absurd h (by decide) | exact absurd h' (by decide))); simpa only [List.append_assoc, List.nil_append, List.append_nil, List.cons_append, nextT_append, nextT_cons, nextT_nil] using this) (by simp only [keepKids', List.flatMap_cons, List.flatMap_nil, List.replicate_zero, List.replicate_succ, List.getElem?_cons_zero, List.getElem?_cons_succ, Bool.false_eq_true, if_true, if_false, List.append_nil, List.nil_append, List.cons_append, List.append_assoc, kidsOf_nd] <;> rfl)

theorem y_302 {n : Nat} {u0 : Tok} (k0 : u0.type = T.«_CPP_COMMENT_NL») :
    Y N.«__child_resource_plus_3» (nd "__child_resource_plus_3" []) [u0] n :=
  Y.node ⟨N.«__child_resource_plus_3», [T.«_CPP_COMMENT_NL»], "__child_resource_plus_3", false, [], 0⟩ (by decide +kernel) rfl (by decide) (free_plain (by decide) (by decide)) (cs := [tk T.«_CPP_COMMENT_NL» u0.text]) (by have : YL [T.«_CPP_COMMENT_NL»] [tk T.«_CPP_COMMENT_NL» u0.text] (u0 :: ([])) n := (.tok k0 (by decide) .nil); simpa only [List.append_assoc, List.nil_append, List.append_nil, List.cons_append, nextT_append, nextT_cons, nextT_nil] using this) (by simp only [keepKids', List.flatMap_cons, List.flatMap_nil, List.replicate_zero, List.replicate_succ, List.getElem?_cons_zero, List.getElem?_cons_succ, Bool.false_eq_true, if_true, if_false, List.append_nil, List.nil_append, List.cons_append, List.append_assoc, kidsOf_nd] <;> rfl)

theorem y_305 {n : Nat} {t0 : List Tree} {w0 : List Tok} {u1 : Tok} {c2 : Tree} {w2 : List Tok} (h0 : Y N.«__type_value_star_4» (nd "__type_value_star_4" t0) w0 u1.type) (k1 : u1.type = T.«VBAR») (h2 : Y N.«value_brackets» c2 w2 n) (hn : NoInfix n) :
    Y N.«__type_value_star_4» (nd "__type_value_star_4" (t0 ++ [c2])) (w0 ++ (u1 :: w2)) n :=
  Y.node ⟨N.«__type_value_star_4», [N.«__type_value_star_4», T.«VBAR», N.«value_brackets»], "__type_value_star_4", false, [(0, true, 0), (2, false, 0)], 0⟩ (by decide +kernel) rfl (by decide) (free_infix (by decide) hn) (cs := [nd "__type_value_star_4" t0, tk T.«VBAR» u1.text, c2]) (by have : YL [N.«__type_value_star_4», T.«VBAR», N.«value_brackets»] [nd "__type_value_star_4" t0, tk T.«VBAR» u1.text, c2] (w0 ++ (u1 :: (w2 ++ ([])))) n := (.nt (by simpa only [List.append_assoc, List.nil_append, List.append_nil, List.cons_append, nextT_append, nextT_cons, nextT_nil] using h0) (.tok k1 (by decide) (.nt (by simpa only [List.append_assoc, List.nil_append, List.append_nil, List.cons_append, nextT_append, nextT_cons, nextT_nil] using h2) .nil (fun h h' => by first | exact absurd h (by decide) | exact absurd h' (by decide)))) (fun h h' => by first | exact absurd h (by decide) | exact absurd h' (by decide))); simpa only [List.append_assoc, List.nil_append, List.append_nil, List.cons_append, nextT_append, nextT_cons, nextT_nil] using this) (by simp only [keepKids', List.flatMap_cons, List.flatMap_nil, List.replicate_zero, List.replicate_succ, List.getElem?_cons_zero, List.getElem?_cons_succ, Bool.false_eq_true, if_true, if_false, List.append_nil, List.nil_append, List.cons_append, List.append_assoc, kidsOf_nd] <;> rfl)

theorem y_308 {n : Nat} {u0 : Tok} {c1 : Tree} {w1 : List Tok} (k0 : u0.type = T.«VBAR») (h1 : Y N.«data_type» c1 w1 n) :
    Y N.«__union_type_plus_6» (nd "__union_type_plus_6" [c1]) (u0 :: w1) n :=
  Y.node ⟨N.«__union_type_plus_6», [T.«VBAR», N.«data_type»], "__union_type_plus_6", false, [(1, false, 0)], 0⟩ (by decide +kernel) rfl (by decide) (free_plain (by decide) (by decide)) (cs := [tk T.«VBAR» u0.text, c1]) (by have : YL [T.«VBAR», N.«data_type»] [tk T.«VBAR» u0.text, c1] (u0 :: (w1 ++ ([]))) n := (.tok k0 (by decide) (.nt (by simpa only [List.append_assoc, List.nil_append, List.append_nil, List.cons_append, nextT_append, nextT_cons, nextT_nil] using h1) .nil (fun h h' => by first | exact absurd h (by decide) | exact absurd h' (by decide)))); simpa only [List.append_assoc, List.nil_append, List.append_nil, List.cons_append, nextT_append, nextT_cons, nextT_nil] using this) (by simp only [keepKids', List.flatMap_cons, List.flatMap_nil, List.replicate_zero, List.replicate_succ, List.getElem?_cons_zero, List.getElem?_cons_succ, Bool.false_eq_true, if_true, if_false, List.append_nil, List.nil_append, List.cons_append, List.append_assoc, kidsOf_nd] <;> rfl)

theorem y_311 {n : Nat} {t0 : List Tree} {w0 : List Tok} {u1 : Tok} {c2 : Tree} {w2 : List Tok} (h0 : Y N.«__array_star_7» (nd "__array_star_7" t0) w0 u1.type) (k1 : u1.type = T.«COMMA») (h2 : Y N.«value_brackets» c2 w2 n) (hn : NoInfix n) :
    Y N.«__array_star_7» (nd "__array_star_7" (t0 ++ [c2])) (w0 ++ (u1 :: w2)) n :=
  Y.node ⟨N.«__array_star_7», [N.«__array_star_7», T.«COMMA», N.«value_brackets»], "__array_star_7", false, [(0, true, 0), (2, false, 0)], 0⟩ (by decide +kernel) rfl (by decide) (free_infix (by decide) hn) (cs := [nd "__array_star_7" t0, tk T.«COMMA» u1.text, c2]) (by have : YL [N.«__array_star_7», T.«COMMA», N.«value_brackets»] [nd "__array_star_7" t0, tk T.«COMMA» u1.text, c2] (w0 ++ (u1 :: (w2 ++ ([])))) n := (.nt (by simpa only [List.append_assoc, List.nil_append, List.append_nil, List.cons_append, nextT_append, nextT_cons, nextT_nil] using h0) (.tok k1 (by decide) (.nt (by simpa only [List.append_assoc, List.nil_append, List.append_nil, List.cons_append, nextT_append, nextT_cons, nextT_nil] using h2) .nil (fun h h' => by first | exact absurd h (by decide) | exact absurd h' (by decide)))) (fun h h' => by first | exact absurd h (by decide) | exact absurd h' (by decide))); simpa only [List.append_assoc, List.nil_append, List.append_nil, List.cons_append, nextT_append, nextT_cons, nextT_nil] using this) (by simp only [keepKids', List.flatMap_cons, List.flatMap_nil, List.replicate_zero, List.replicate_succ, List.getElem?_cons_zero, List.getElem?_cons_succ, Bool.false_eq_true, if_true, if_false, List.append_nil, List.nil_append, List.cons_append, List.append_assoc, kidsOf_nd] <;> rfl)

theorem y_314 {n : Nat} {c0 : Tree} {w0 : List Tok} {t1 : List Tree} {w1 : List Tok} (h0 : Y N.«value_brackets» c0 w0 (nextT w1 n)) (h1 : Y N.«__child_resource_plus_3» (nd "__child_resource_plus_3" t1) w1 n) :
    Y N.«__array_star_8» (nd "__array_star_8" (c0 :: t1)) (w0 ++ w1) n :=
  Y.node ⟨N.«__array_star_8», [N.«value_brackets», N.«__child_resource_plus_3»], "__array_star_8", false, [(0, false, 0), (1, true, 0)], 0⟩ (by decide +kernel) rfl (by decide) (free_plain (by decide) (by decide)) (cs := [c0, nd "__child_resource_plus_3" t1]) (by have : YL [N.«value_brackets», N.«__child_resource_plus_3»] [c0, nd "__child_resource_plus_3" t1] (w0 ++ (w1 ++ ([]))) n := (.nt (by simpa only [List.append_assoc, List.nil_append, List.append_nil, List.cons_append, nextT_append, nextT_cons, nextT_nil] using h0) (.nt (by simpa only [List.append_assoc, List.nil_append, List.append_nil, List.cons_append, nextT_append, nextT_cons, nextT_nil] using h1) .nil (fun h h' => by first | exact absurd h (by decide) | exact absurd h' (by decide))) (fun h h' => by first | exact absurd h (by decide) | exact absurd h' (by decide))); simpa only [List.append_assoc, List.nil_append, List.append_nil, List.cons_append, nextT_append, nextT_cons, nextT_nil] using this) (by simp only [keepKids', List.flatMap_cons, List.flatMap_nil, List.replicate_zero, List.replicate_succ, List.getElem?_cons_zero, List.getElem?_cons_succ, Bool.false_eq_true, if_true, if_false, List.append_nil, List.nil_append, List.cons_append, List.append_assoc, kidsOf_nd] <;> rfl)

theorem y_317 {n : Nat} {t0 : List Tree} {w0 : List Tok} {c1 : Tree} {w1 : List Tok} {t2 : List Tree} {w2 : List Tok} (h0 : Y N.«__array_star_8» (nd "__array_star_8" t0) w0 (nextT w1 (nextT w2 n))) (h1 : Y N.«value_brackets» c1 w1 (nextT w2 n)) (h2 : Y N.«__array_star_7» (nd "__array_star_7" t2) w2 n) :
    Y N.«__array_star_8» (nd "__array_star_8" (t0 ++ (c1 :: t2))) (w0 ++ (w1 ++ w2)) n :=
  Y.node ⟨N.«__array_star_8», [N.«__array_star_8», N.«value_brackets», N.«__array_star_7»], "__array_star_8", false, [(0, true, 0), (1, false, 0), (2, true, 0)], 0⟩ (by decide +kernel) rfl (by decide) (free_plain (by decide) (by decide)) (cs := [nd "__array_star_8" t0, c1, nd "__array_star_7" t2]) (by have : YL [N.«__array_star_8», N.«value_brackets», N.«__array_star_7»] [nd "__array_star_8" t0, c1, nd "__array_star_7" t2] (w0 ++ (w1 ++ (w2 ++ ([])))) n := (.nt (by simpa only [List.append_assoc, List.nil_append, List.append_nil, List.cons_append, nextT_append, nextT_cons, nextT_nil] using h0) (.nt (by simpa only [List.append_assoc, List.nil_append, List.append_nil, List.cons_append, nextT_append, nextT_cons, nextT_nil] using h1) (.nt (by simpa only [List.append_assoc, List.nil_append, List.append_nil, List.cons_append, nextT_append, nextT_cons, nextT_nil] using h2) .nil (fun h h' => by first | exact absurd h (by decide) | exact absurd h' (by decide))) (fun h h' => by first | exact absurd h (by decide) | exact absurd h' (by decide))) (fun h h' => by first | exact absurd h (by decide) | exact absurd h' (by decide))); simpa only [List.append_assoc, List.nil_append, List.append_nil, List.cons_append, nextT_append, nextT_cons, nextT_nil] using this) (by simp only [keepKids', List.flatMap_cons, List.flatMap_nil, List.replicate_zero, List.replicate_succ, List.getElem?_cons_zero, List.getElem?_cons_succ, Bool.false_eq_true, if_true, if_false, List.append_nil, List.nil_append, List.cons_append, List.append_assoc, kidsOf_nd] <;> rfl)

theorem y_320 {n : Nat} {u0 : Tok} {c1 : Tree} {w1 : List Tok} (k0 : u0.type = T.«COMMA») (h1 : Y N.«pair» c1 w1 n) :
    Y N.«__object_star_9» (nd "__object_star_9" [c1]) (u0 :: w1) n :=
  Y.node ⟨N.«__object_star_9», [T.«COMMA», N.«pair»], "__object_star_9", false, [(1, false, 0)], 0⟩ (by decide +kernel) rfl (by decide) (free_plain (by decide) (by decide)) (cs := [tk T.«COMMA» u0.text, c1]) (by have : YL [T.«COMMA», N.«pair»] [tk T.«COMMA» u0.text, c1] (u0 :: (w1 ++ ([]))) n := (.tok k0 (by decide) (.nt (by simpa only [List.append_assoc, List.nil_append, List.append_nil, List.cons_append, nextT_append, nextT_cons, nextT_nil] using h1) .nil (fun h h' => by first | exact absurd h (by decide) | exact absurd h' (by decide)))); simpa only [List.append_assoc, List.nil_append, List.append_nil, List.cons_append, nextT_append, nextT_cons, nextT_nil] using this) (by simp only [keepKids', List.flatMap_cons, List.flatMap_nil, List.replicate_zero, List.replicate_succ, List.getElem?_cons_zero, List.getElem?_cons_succ, Bool.false_eq_true, if_true, if_false, List.append_nil, List.nil_append, List.cons_append, List.append_assoc, kidsOf_nd] <;> rfl)

theorem y_323 {n : Nat} {c0 : Tree} {w0 : List Tok} {t1 : List Tree} {w1 : List Tok} (h0 : Y N.«pair» c0 w0 (nextT w1 n)) (h1 : Y N.«__object_star_9» (nd "__object_star_9" t1) w1 n) :
    Y N.«__object_star_10» (nd "__object_star_10" (c0 :: t1)) (w0 ++ w1) n :=
  Y.node ⟨N.«__object_star_10», [N.«pair», N.«__object_star_9»], "__object_star_10", false, [(0, false, 0), (1, true, 0)], 0⟩ (by decide +kernel) rfl (by decide) (free_plain (by decide) (by decide)) (cs := [c0, nd "__object_star_9" t1]) (by have : YL [N.«pair», N.«__object_star_9»] [c0, nd "__object_star_9" t1] (w0 ++ (w1 ++ ([]))) n := (.nt (by simpa only [List.append_assoc, List.nil_append, List.append_nil, List.cons_append, nextT_append, nextT_cons, nextT_nil] using h0) (.nt (by simpa only [List.append_assoc, List.nil_append, List.append_nil, List.cons_append, nextT_append, nextT_cons, nextT_nil] using h1) .nil (fun h h' => by first | exact absurd h (by decide) | exact absurd h' (by decide))) (fun h h' => by first | exact absurd h (by decide) | exact absurd h' (by decide))); simpa only [List.append_assoc, List.nil_append, List.append_nil, List.cons_append, nextT_append, nextT_cons, nextT_nil] using this) (by simp only [keepKids', List.flatMap_cons, List.flatMap_nil, List.replicate_zero, List.replicate_succ, List.getElem?_cons_zero, List.getElem?_cons_succ, Bool.false_eq_true, if_true, if_false, List.append_nil, List.nil_append, List.cons_append, List.append_assoc, kidsOf_nd] <;> rfl)

theorem y_326 {n : Nat} {c0 : Tree} {w0 : List Tok} {t1 : List Tree} {w1 : List Tok} (h0 : Y N.«child_resource» c0 w0 (nextT w1 n)) (h1 : Y N.«__child_resource_plus_3» (nd "__child_resource_plus_3" t1) w1 n) :
    Y N.«__object_star_10» (nd "__object_star_10" (c0 :: t1)) (w0 ++ w1) n :=
  Y.node ⟨N.«__object_star_10», [N.«child_resource», N.«__child_resource_plus_3»], "__object_star_10", false, [(0, false, 0), (1, true, 0)], 0⟩ (by decide +kernel) rfl (by decide) (free_plain (by decide) (by decide)) (cs := [c0, nd "__child_resource_plus_3" t1]) (by have : YL [N.«child_resource», N.«__child_resource_plus_3»] [c0, nd "__child_resource_plus_3" t1] (w0 ++ (w1 ++ ([]))) n := (.nt (by simpa only [List.append_assoc, List.nil_append, List.append_nil, List.cons_append, nextT_append, nextT_cons, nextT_nil] using h0) (.nt (by simpa only [List.append_assoc, List.nil_append, List.append_nil, List.cons_append, nextT_append, nextT_cons, nextT_nil] using h1) .nil (fun h h' => by first | exact absurd h (by decide) | exact absurd h' (by decide))) (fun h h' => by first | exact absurd h (by decide) | exact absurd h' (by decide))); simpa only [List.append_assoc, List.nil_append, List.append_nil, List.cons_append, nextT_append, nextT_cons, nextT_nil] using this) (by simp only [keepKids', List.flatMap_cons, List.flatMap_nil, List.replicate_zero, List.replicate_succ, List.getElem?_cons_zero, List.getElem?_cons_succ, Bool.false_eq_true, if_true, if_false, List.append_nil, List.nil_append, List.cons_append, List.append_assoc, kidsOf_nd] <;> rfl)

theorem y_329 {n : Nat} {t0 : List Tree} {w0 : List Tok} {c1 : Tree} {w1 : List Tok} {t2 : List Tree} {w2 : List Tok} (h0 : Y N.«__object_star_10» (nd "__object_star_10" t0) w0 (nextT w1 (nextT w2 n))) (h1 : Y N.«pair» c1 w1 (nextT w2 n)) (h2 : Y N.«__object_star_9» (nd "__object_star_9" t2) w2 n) :
    Y N.«__object_star_10» (nd "__object_star_10" (t0 ++ (c1 :: t2))) (w0 ++ (w1 ++ w2)) n :=
  Y.node ⟨N.«__object_star_10», [N.«__object_star_10», N.«pair», N.«__object_star_9»], "__object_star_10", false, [(0, true, 0), (1, false, 0), (2, true, 0)], 0⟩ (by decide +kernel) rfl (by decide) (free_plain (by decide) (by decide)) (cs := [nd "__object_star_10" t0, c1, nd "__object_star_9" t2]) (by have : YL [N.«__object_star_10», N.«pair», N.«__object_star_9»] [nd "__object_star_10" t0, c1, nd "__object_star_9" t2] (w0 ++ (w1 ++ (w2 ++ ([])))) n := (.nt (by simpa only [List.append_assoc, List.nil_append, List.append_nil, List.cons_append, nextT_append, nextT_cons, nextT_nil] using h0) (.nt (by simpa only [List.append_assoc, List.nil_append, List.append_nil, List.cons_append, nextT_append, nextT_cons, nextT_nil] using h1) (.nt (by simpa only [List.append_assoc, List.nil_append, List.append_nil, List.cons_append, nextT_append, nextT_cons, nextT_nil] using h2) .nil (fun h h' => by first | exact absurd h (by decide) | exact absurd h' (by decide))) (fun h h' => by first | exact absurd h (by decide) | exact absurd h' (by decide))) (fun h h' => by first | exact absurd h (by decide) | exact absurd h' (by decide))); simpa only [List.append_assoc, List.nil_append, List.append_nil, List.cons_append, nextT_append, nextT_cons, nextT_nil] using this) (by simp only [keepKids', List.flatMap_cons, List.flatMap_nil, List.replicate_zero, List.replicate_succ, List.getElem?_cons_zero, List.getElem?_cons_succ, Bool.false_eq_true, if_true, if_false, List.append_nil, List.nil_append, List.cons_append, List.append_assoc, kidsOf_nd] <;> rfl)

theorem y_332 {n : Nat} {t0 : List Tree} {w0 : List Tok} {c1 : Tree} {w1 : List Tok} {t2 : List Tree} {w2 : List Tok} (h0 : Y N.«__object_star_10» (nd "__object_star_10" t0) w0 (nextT w1 (nextT w2 n))) (h1 : Y N.«child_resource» c1 w1 (nextT w2 n)) (h2 : Y N.«__child_resource_plus_3» (nd "__child_resource_plus_3" t2) w2 n) :
    Y N.«__object_star_10» (nd "__object_star_10" (t0 ++ (c1 :: t2))) (w0 ++ (w1 ++ w2)) n :=
  Y.node ⟨N.«__object_star_10», [N.«__object_star_10», N.«child_resource», N.«__child_resource_plus_3»], "__object_star_10", false, [(0, true, 0), (1, false, 0), (2, true, 0)], 0⟩ (by decide +kernel) rfl (by decide) (free_plain (by decide) (by decide)) (cs := [nd "__object_star_10" t0, c1, nd "__child_resource_plus_3" t2]) (by have : YL [N.«__object_star_10», N.«child_resource», N.«__child_resource_plus_3»] [nd "__object_star_10" t0, c1, nd "__child_resource_plus_3" t2] (w0 ++ (w1 ++ (w2 ++ ([])))) n := (.nt (by simpa only [List.append_assoc, List.nil_append, List.append_nil, List.cons_append, nextT_append, nextT_cons, nextT_nil] using h0) (.nt (by simpa only [List.append_assoc, List.nil_append, List.append_nil, List.cons_append, nextT_append, nextT_cons, nextT_nil] using h1) (.nt (by simpa only [List.append_assoc, List.nil_append, List.append_nil, List.cons_append, nextT_append, nextT_cons, nextT_nil] using h2) .nil (fun h h' => by first | exact absurd h (by decide) | exact absurd h' (by decide))) (fun h h' => by first | exact absurd h (by decide) | exact absurd h' (by decide))) (fun h h' => by first | exact absurd h (by decide) | exact absurd h' (by decide))); simpa only [List.append_assoc, List.nil_append, List.append_nil, List.cons_append, nextT_append, nextT_cons, nextT_nil] using this) (by simp only [keepKids', List.flatMap_cons, List.flatMap_nil, List.replicate_zero, List.replicate_succ, List.getElem?_cons_zero, List.getElem?_cons_succ, Bool.false_eq_true, if_true, if_false, List.append_nil, List.nil_append, List.cons_append, List.append_assoc, kidsOf_nd] <;> rfl)

theorem y_335 {n : Nat} {t0 : List Tree} {w0 : List Tok} {c1 : Tree} {w1 : List Tok} (h0 : Y N.«__decorators_plus_11» (nd "__decorators_plus_11" t0) w0 (nextT w1 n)) (h1 : Y N.«decorator» c1 w1 n) :
    Y N.«__decorators_plus_11» (nd "__decorators_plus_11" (t0 ++ [c1])) (w0 ++ w1) n :=
  Y.node ⟨N.«__decorators_plus_11», [N.«__decorators_plus_11», N.«decorator»], "__decorators_plus_11", false, [(0, true, 0), (1, false, 0)], 0⟩ (by decide +kernel) rfl (by decide) (free_plain (by decide) (by decide)) (cs := [nd "__decorators_plus_11" t0, c1]) (by have : YL [N.«__decorators_plus_11», N.«decorator»] [nd "__decorators_plus_11" t0, c1] (w0 ++ (w1 ++ ([]))) n := (.nt (by simpa only [List.append_assoc, List.nil_append, List.append_nil, List.cons_append, nextT_append, nextT_cons, nextT_nil] using h0) (.nt (by simpa only [List.append_assoc, List.nil_append, List.append_nil, List.cons_append, nextT_append, nextT_cons, nextT_nil] using h1) .nil (fun h h' => by first | exact absurd h (by decide) | exact absurd h' (by decide))) (fun h h' => by first | exact absurd h (by decide) | exact absurd h' (by decide))); simpa only [List.append_assoc, List.nil_append, List.append_nil, List.cons_append, nextT_append, nextT_cons, nextT_nil] using this) (by simp only [keepKids', List.flatMap_cons, List.flatMap_nil, List.replicate_zero, List.replicate_succ, List.getElem?_cons_zero, List.getElem?_cons_succ, Bool.false_eq_true, if_true, if_false, List.append_nil, List.nil_append, List.cons_append, List.append_assoc, kidsOf_nd] <;> rfl)

theorem y_338 {n : Nat} {t0 : List Tree} {w0 : List Tok} {u1 : Tok} {u2 : Tok} {c3 : Tree} {w3 : List Tok} (h0 : Y N.«__function_star_12» (nd "__function_star_12" t0) w0 u1.type) (k1 : u1.type = T.«COMMA») (k2 : u2.type = T.«_CPP_COMMENT_NL») (h3 : Y N.«value_brackets» c3 w3 n) (hn : NoInfix n) :
    Y N.«__function_star_12» (nd "__function_star_12" (t0 ++ [c3])) (w0 ++ (u1 :: (u2 :: w3))) n :=
  Y.node ⟨N.«__function_star_12», [N.«__function_star_12», T.«COMMA», T.«_CPP_COMMENT_NL», N.«value_brackets»], "__function_star_12", false, [(0, true, 0), (3, false, 0)], 0⟩ (by decide +kernel) rfl (by decide) (free_infix (by decide) hn) (cs := [nd "__function_star_12" t0, tk T.«COMMA» u1.text, tk T.«_CPP_COMMENT_NL» u2.text, c3]) (by have : YL [N.«__function_star_12», T.«COMMA», T.«_CPP_COMMENT_NL», N.«value_brackets»] [nd "__function_star_12" t0, tk T.«COMMA» u1.text, tk T.«_CPP_COMMENT_NL» u2.text, c3] (w0 ++ (u1 :: (u2 :: (w3 ++ ([]))))) n := (.nt (by simpa only [List.append_assoc, List.nil_append, List.append_nil, List.cons_append, nextT_append, nextT_cons, nextT_nil] using h0) (.tok k1 (by decide) (.tok k2 (by decide) (.nt (by simpa only [List.append_assoc, List.nil_append, List.append_nil, List.cons_append, nextT_append, nextT_cons, nextT_nil] using h3) .nil (fun h h' => by first | exact absurd h (by decide) | exact absurd h' (by decide))))) (fun h h' => by first | exact absurd h (by decide) | exact absurd h' (by decide))); simpa only [List.append_assoc, List.nil_append, List.append_nil, List.cons_append, nextT_append, nextT_cons, nextT_nil] using this) (by simp only [keepKids', List.flatMap_cons, List.flatMap_nil, List.replicate_zero, List.replicate_succ, List.getElem?_cons_zero, List.getElem?_cons_succ, Bool.false_eq_true, if_true, if_false, List.append_nil, List.nil_append, List.cons_append, List.append_assoc, kidsOf_nd] <;> rfl)

theorem y_341 {n : Nat} (hn : n ≠ T.COMMA) :
    Y N.«__function_accessor_plus_13» (nd "__function_accessor_plus_13" [Tree.none]) [] n :=
  Y.node ⟨N.«__function_accessor_plus_13», [], "__function_accessor_plus_13", false, [], 1⟩ (by decide +kernel) rfl (by decide) (by unfold badNode badReduce; rw [beq_false hn]; rfl) (cs := []) (by have : YL [] [] ([]) n := .nil; simpa only [List.append_assoc, List.nil_append, List.append_nil, List.cons_append, nextT_append, nextT_cons, nextT_nil] using this) (by simp only [keepKids', List.flatMap_cons, List.flatMap_nil, List.replicate_zero, List.replicate_succ, List.getElem?_cons_zero, List.getElem?_cons_succ, Bool.false_eq_true, if_true, if_false, List.append_nil, List.nil_append, List.cons_append, List.append_assoc, kidsOf_nd] <;> rfl)

end Pycep
