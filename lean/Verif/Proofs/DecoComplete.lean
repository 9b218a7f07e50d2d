import Verif.Proofs.SynComplete
/-
Decorators have admissible derivations.  Written by tools/gen_deco_complete.py.
-/
set_option linter.style.nameCheck false
set_option linter.unusedSimpArgs false
set_option linter.unusedVariables false
namespace Pycep

theorem deco_bab {a u p x0 y0 q : Tok} {c : Tree} {w : List Tok} {n : Nat} (ka : a.type = T.AT) (ku : u.type = T.__ANON_2) (kp : p.type = T.LPAR) (kx0 : x0.type = T._CPP_COMMENT_NL) (ky0 : y0.type = T._CPP_COMMENT_NL) (kq : q.type = T.RPAR) (h : Y N.value_brackets c w y0.type) :
    ∀ w4 : List Tok, Breaks w4 → w4.length ≤ 10 →
      Y N.decorator (nd "decorator" (tk T.__ANON_2 u.text :: [c])) (a :: u :: p :: x0 :: (w ++ (y0 :: q :: w4))) n
  | [], hb, _ => y_146 ka ku kp kx0 h ky0 kq
  | [z0], hb, _ => y_147 ka ku kp kx0 h ky0 kq (hb z0 (by simp))
  | [z0, z1], hb, _ => y_148 ka ku kp kx0 h ky0 kq (hb z0 (by simp)) (hb z1 (by simp))
  | [z0, z1, z2], hb, _ => y_149 ka ku kp kx0 h ky0 kq (hb z0 (by simp)) (hb z1 (by simp)) (hb z2 (by simp))
  | [z0, z1, z2, z3], hb, _ => y_150 ka ku kp kx0 h ky0 kq (hb z0 (by simp)) (hb z1 (by simp)) (hb z2 (by simp)) (hb z3 (by simp))
  | [z0, z1, z2, z3, z4], hb, _ => y_151 ka ku kp kx0 h ky0 kq (hb z0 (by simp)) (hb z1 (by simp)) (hb z2 (by simp)) (hb z3 (by simp)) (hb z4 (by simp))
  | [z0, z1, z2, z3, z4, z5], hb, _ => y_152 ka ku kp kx0 h ky0 kq (hb z0 (by simp)) (hb z1 (by simp)) (hb z2 (by simp)) (hb z3 (by simp)) (hb z4 (by simp)) (hb z5 (by simp))
  | [z0, z1, z2, z3, z4, z5, z6], hb, _ => y_153 ka ku kp kx0 h ky0 kq (hb z0 (by simp)) (hb z1 (by simp)) (hb z2 (by simp)) (hb z3 (by simp)) (hb z4 (by simp)) (hb z5 (by simp)) (hb z6 (by simp))
  | [z0, z1, z2, z3, z4, z5, z6, z7], hb, _ => y_154 ka ku kp kx0 h ky0 kq (hb z0 (by simp)) (hb z1 (by simp)) (hb z2 (by simp)) (hb z3 (by simp)) (hb z4 (by simp)) (hb z5 (by simp)) (hb z6 (by simp)) (hb z7 (by simp))
  | [z0, z1, z2, z3, z4, z5, z6, z7, z8], hb, _ => y_155 ka ku kp kx0 h ky0 kq (hb z0 (by simp)) (hb z1 (by simp)) (hb z2 (by simp)) (hb z3 (by simp)) (hb z4 (by simp)) (hb z5 (by simp)) (hb z6 (by simp)) (hb z7 (by simp)) (hb z8 (by simp))
  | [z0, z1, z2, z3, z4, z5, z6, z7, z8, z9], hb, _ => y_156 ka ku kp kx0 h ky0 kq (hb z0 (by simp)) (hb z1 (by simp)) (hb z2 (by simp)) (hb z3 (by simp)) (hb z4 (by simp)) (hb z5 (by simp)) (hb z6 (by simp)) (hb z7 (by simp)) (hb z8 (by simp)) (hb z9 (by simp))
  | _ :: _ :: _ :: _ :: _ :: _ :: _ :: _ :: _ :: _ :: _ :: _, _, h => by simp at h

theorem deco_ba {a u p x0 q : Tok} {c : Tree} {w : List Tok} {n : Nat} (ka : a.type = T.AT) (ku : u.type = T.__ANON_2) (kp : p.type = T.LPAR) (kx0 : x0.type = T._CPP_COMMENT_NL) (kq : q.type = T.RPAR) (h : Y N.value_brackets c w q.type) :
    ∀ w4 : List Tok, Breaks w4 → w4.length ≤ 10 →
      Y N.decorator (nd "decorator" (tk T.__ANON_2 u.text :: [c])) (a :: u :: p :: x0 :: (w ++ (q :: w4))) n
  | [], hb, _ => y_157 ka ku kp kx0 h kq
  | [z0], hb, _ => y_158 ka ku kp kx0 h kq (hb z0 (by simp))
  | [z0, z1], hb, _ => y_159 ka ku kp kx0 h kq (hb z0 (by simp)) (hb z1 (by simp))
  | [z0, z1, z2], hb, _ => y_160 ka ku kp kx0 h kq (hb z0 (by simp)) (hb z1 (by simp)) (hb z2 (by simp))
  | [z0, z1, z2, z3], hb, _ => y_161 ka ku kp kx0 h kq (hb z0 (by simp)) (hb z1 (by simp)) (hb z2 (by simp)) (hb z3 (by simp))
  | [z0, z1, z2, z3, z4], hb, _ => y_162 ka ku kp kx0 h kq (hb z0 (by simp)) (hb z1 (by simp)) (hb z2 (by simp)) (hb z3 (by simp)) (hb z4 (by simp))
  | [z0, z1, z2, z3, z4, z5], hb, _ => y_163 ka ku kp kx0 h kq (hb z0 (by simp)) (hb z1 (by simp)) (hb z2 (by simp)) (hb z3 (by simp)) (hb z4 (by simp)) (hb z5 (by simp))
  | [z0, z1, z2, z3, z4, z5, z6], hb, _ => y_164 ka ku kp kx0 h kq (hb z0 (by simp)) (hb z1 (by simp)) (hb z2 (by simp)) (hb z3 (by simp)) (hb z4 (by simp)) (hb z5 (by simp)) (hb z6 (by simp))
  | [z0, z1, z2, z3, z4, z5, z6, z7], hb, _ => y_165 ka ku kp kx0 h kq (hb z0 (by simp)) (hb z1 (by simp)) (hb z2 (by simp)) (hb z3 (by simp)) (hb z4 (by simp)) (hb z5 (by simp)) (hb z6 (by simp)) (hb z7 (by simp))
  | [z0, z1, z2, z3, z4, z5, z6, z7, z8], hb, _ => y_166 ka ku kp kx0 h kq (hb z0 (by simp)) (hb z1 (by simp)) (hb z2 (by simp)) (hb z3 (by simp)) (hb z4 (by simp)) (hb z5 (by simp)) (hb z6 (by simp)) (hb z7 (by simp)) (hb z8 (by simp))
  | [z0, z1, z2, z3, z4, z5, z6, z7, z8, z9], hb, _ => y_167 ka ku kp kx0 h kq (hb z0 (by simp)) (hb z1 (by simp)) (hb z2 (by simp)) (hb z3 (by simp)) (hb z4 (by simp)) (hb z5 (by simp)) (hb z6 (by simp)) (hb z7 (by simp)) (hb z8 (by simp)) (hb z9 (by simp))
  | _ :: _ :: _ :: _ :: _ :: _ :: _ :: _ :: _ :: _ :: _ :: _, _, h => by simp at h

theorem deco_bb {a u p x0 x1 q : Tok} {n : Nat} (ka : a.type = T.AT) (ku : u.type = T.__ANON_2) (kp : p.type = T.LPAR) (kx0 : x0.type = T._CPP_COMMENT_NL) (kx1 : x1.type = T._CPP_COMMENT_NL) (kq : q.type = T.RPAR) :
    ∀ w4 : List Tok, Breaks w4 → w4.length ≤ 10 →
      Y N.decorator (nd "decorator" ([tk T.__ANON_2 u.text])) (a :: u :: p :: x0 :: x1 :: q :: w4) n
  | [], hb, _ => y_168 ka ku kp kx0 kx1 kq
  | [z0], hb, _ => y_169 ka ku kp kx0 kx1 kq (hb z0 (by simp))
  | [z0, z1], hb, _ => y_170 ka ku kp kx0 kx1 kq (hb z0 (by simp)) (hb z1 (by simp))
  | [z0, z1, z2], hb, _ => y_171 ka ku kp kx0 kx1 kq (hb z0 (by simp)) (hb z1 (by simp)) (hb z2 (by simp))
  | [z0, z1, z2, z3], hb, _ => y_172 ka ku kp kx0 kx1 kq (hb z0 (by simp)) (hb z1 (by simp)) (hb z2 (by simp)) (hb z3 (by simp))
  | [z0, z1, z2, z3, z4], hb, _ => y_173 ka ku kp kx0 kx1 kq (hb z0 (by simp)) (hb z1 (by simp)) (hb z2 (by simp)) (hb z3 (by simp)) (hb z4 (by simp))
  | [z0, z1, z2, z3, z4, z5], hb, _ => y_174 ka ku kp kx0 kx1 kq (hb z0 (by simp)) (hb z1 (by simp)) (hb z2 (by simp)) (hb z3 (by simp)) (hb z4 (by simp)) (hb z5 (by simp))
  | [z0, z1, z2, z3, z4, z5, z6], hb, _ => y_175 ka ku kp kx0 kx1 kq (hb z0 (by simp)) (hb z1 (by simp)) (hb z2 (by simp)) (hb z3 (by simp)) (hb z4 (by simp)) (hb z5 (by simp)) (hb z6 (by simp))
  | [z0, z1, z2, z3, z4, z5, z6, z7], hb, _ => y_176 ka ku kp kx0 kx1 kq (hb z0 (by simp)) (hb z1 (by simp)) (hb z2 (by simp)) (hb z3 (by simp)) (hb z4 (by simp)) (hb z5 (by simp)) (hb z6 (by simp)) (hb z7 (by simp))
  | [z0, z1, z2, z3, z4, z5, z6, z7, z8], hb, _ => y_177 ka ku kp kx0 kx1 kq (hb z0 (by simp)) (hb z1 (by simp)) (hb z2 (by simp)) (hb z3 (by simp)) (hb z4 (by simp)) (hb z5 (by simp)) (hb z6 (by simp)) (hb z7 (by simp)) (hb z8 (by simp))
  | [z0, z1, z2, z3, z4, z5, z6, z7, z8, z9], hb, _ => y_178 ka ku kp kx0 kx1 kq (hb z0 (by simp)) (hb z1 (by simp)) (hb z2 (by simp)) (hb z3 (by simp)) (hb z4 (by simp)) (hb z5 (by simp)) (hb z6 (by simp)) (hb z7 (by simp)) (hb z8 (by simp)) (hb z9 (by simp))
  | _ :: _ :: _ :: _ :: _ :: _ :: _ :: _ :: _ :: _ :: _ :: _, _, h => by simp at h

theorem deco_b {a u p x0 q : Tok} {n : Nat} (ka : a.type = T.AT) (ku : u.type = T.__ANON_2) (kp : p.type = T.LPAR) (kx0 : x0.type = T._CPP_COMMENT_NL) (kq : q.type = T.RPAR) :
    ∀ w4 : List Tok, Breaks w4 → w4.length ≤ 10 →
      Y N.decorator (nd "decorator" ([tk T.__ANON_2 u.text])) (a :: u :: p :: x0 :: q :: w4) n
  | [], hb, _ => y_179 ka ku kp kx0 kq
  | [z0], hb, _ => y_180 ka ku kp kx0 kq (hb z0 (by simp))
  | [z0, z1], hb, _ => y_181 ka ku kp kx0 kq (hb z0 (by simp)) (hb z1 (by simp))
  | [z0, z1, z2], hb, _ => y_182 ka ku kp kx0 kq (hb z0 (by simp)) (hb z1 (by simp)) (hb z2 (by simp))
  | [z0, z1, z2, z3], hb, _ => y_183 ka ku kp kx0 kq (hb z0 (by simp)) (hb z1 (by simp)) (hb z2 (by simp)) (hb z3 (by simp))
  | [z0, z1, z2, z3, z4], hb, _ => y_184 ka ku kp kx0 kq (hb z0 (by simp)) (hb z1 (by simp)) (hb z2 (by simp)) (hb z3 (by simp)) (hb z4 (by simp))
  | [z0, z1, z2, z3, z4, z5], hb, _ => y_185 ka ku kp kx0 kq (hb z0 (by simp)) (hb z1 (by simp)) (hb z2 (by simp)) (hb z3 (by simp)) (hb z4 (by simp)) (hb z5 (by simp))
  | [z0, z1, z2, z3, z4, z5, z6], hb, _ => y_186 ka ku kp kx0 kq (hb z0 (by simp)) (hb z1 (by simp)) (hb z2 (by simp)) (hb z3 (by simp)) (hb z4 (by simp)) (hb z5 (by simp)) (hb z6 (by simp))
  | [z0, z1, z2, z3, z4, z5, z6, z7], hb, _ => y_187 ka ku kp kx0 kq (hb z0 (by simp)) (hb z1 (by simp)) (hb z2 (by simp)) (hb z3 (by simp)) (hb z4 (by simp)) (hb z5 (by simp)) (hb z6 (by simp)) (hb z7 (by simp))
  | [z0, z1, z2, z3, z4, z5, z6, z7, z8], hb, _ => y_188 ka ku kp kx0 kq (hb z0 (by simp)) (hb z1 (by simp)) (hb z2 (by simp)) (hb z3 (by simp)) (hb z4 (by simp)) (hb z5 (by simp)) (hb z6 (by simp)) (hb z7 (by simp)) (hb z8 (by simp))
  | [z0, z1, z2, z3, z4, z5, z6, z7, z8, z9], hb, _ => y_189 ka ku kp kx0 kq (hb z0 (by simp)) (hb z1 (by simp)) (hb z2 (by simp)) (hb z3 (by simp)) (hb z4 (by simp)) (hb z5 (by simp)) (hb z6 (by simp)) (hb z7 (by simp)) (hb z8 (by simp)) (hb z9 (by simp))
  | _ :: _ :: _ :: _ :: _ :: _ :: _ :: _ :: _ :: _ :: _ :: _, _, h => by simp at h

theorem deco_ab {a u p y0 q : Tok} {c : Tree} {w : List Tok} {n : Nat} (ka : a.type = T.AT) (ku : u.type = T.__ANON_2) (kp : p.type = T.LPAR) (ky0 : y0.type = T._CPP_COMMENT_NL) (kq : q.type = T.RPAR) (h : Y N.value_brackets c w y0.type) :
    ∀ w4 : List Tok, Breaks w4 → w4.length ≤ 10 →
      Y N.decorator (nd "decorator" (tk T.__ANON_2 u.text :: [c])) (a :: u :: p :: (w ++ (y0 :: q :: w4))) n
  | [], hb, _ => y_190 ka ku kp h ky0 kq
  | [z0], hb, _ => y_191 ka ku kp h ky0 kq (hb z0 (by simp))
  | [z0, z1], hb, _ => y_192 ka ku kp h ky0 kq (hb z0 (by simp)) (hb z1 (by simp))
  | [z0, z1, z2], hb, _ => y_193 ka ku kp h ky0 kq (hb z0 (by simp)) (hb z1 (by simp)) (hb z2 (by simp))
  | [z0, z1, z2, z3], hb, _ => y_194 ka ku kp h ky0 kq (hb z0 (by simp)) (hb z1 (by simp)) (hb z2 (by simp)) (hb z3 (by simp))
  | [z0, z1, z2, z3, z4], hb, _ => y_195 ka ku kp h ky0 kq (hb z0 (by simp)) (hb z1 (by simp)) (hb z2 (by simp)) (hb z3 (by simp)) (hb z4 (by simp))
  | [z0, z1, z2, z3, z4, z5], hb, _ => y_196 ka ku kp h ky0 kq (hb z0 (by simp)) (hb z1 (by simp)) (hb z2 (by simp)) (hb z3 (by simp)) (hb z4 (by simp)) (hb z5 (by simp))
  | [z0, z1, z2, z3, z4, z5, z6], hb, _ => y_197 ka ku kp h ky0 kq (hb z0 (by simp)) (hb z1 (by simp)) (hb z2 (by simp)) (hb z3 (by simp)) (hb z4 (by simp)) (hb z5 (by simp)) (hb z6 (by simp))
  | [z0, z1, z2, z3, z4, z5, z6, z7], hb, _ => y_198 ka ku kp h ky0 kq (hb z0 (by simp)) (hb z1 (by simp)) (hb z2 (by simp)) (hb z3 (by simp)) (hb z4 (by simp)) (hb z5 (by simp)) (hb z6 (by simp)) (hb z7 (by simp))
  | [z0, z1, z2, z3, z4, z5, z6, z7, z8], hb, _ => y_199 ka ku kp h ky0 kq (hb z0 (by simp)) (hb z1 (by simp)) (hb z2 (by simp)) (hb z3 (by simp)) (hb z4 (by simp)) (hb z5 (by simp)) (hb z6 (by simp)) (hb z7 (by simp)) (hb z8 (by simp))
  | [z0, z1, z2, z3, z4, z5, z6, z7, z8, z9], hb, _ => y_200 ka ku kp h ky0 kq (hb z0 (by simp)) (hb z1 (by simp)) (hb z2 (by simp)) (hb z3 (by simp)) (hb z4 (by simp)) (hb z5 (by simp)) (hb z6 (by simp)) (hb z7 (by simp)) (hb z8 (by simp)) (hb z9 (by simp))
  | _ :: _ :: _ :: _ :: _ :: _ :: _ :: _ :: _ :: _ :: _ :: _, _, h => by simp at h

theorem deco_a {a u p q : Tok} {c : Tree} {w : List Tok} {n : Nat} (ka : a.type = T.AT) (ku : u.type = T.__ANON_2) (kp : p.type = T.LPAR) (kq : q.type = T.RPAR) (h : Y N.value_brackets c w q.type) :
    ∀ w4 : List Tok, Breaks w4 → w4.length ≤ 10 →
      Y N.decorator (nd "decorator" (tk T.__ANON_2 u.text :: [c])) (a :: u :: p :: (w ++ (q :: w4))) n
  | [], hb, _ => y_201 ka ku kp h kq
  | [z0], hb, _ => y_202 ka ku kp h kq (hb z0 (by simp))
  | [z0, z1], hb, _ => y_203 ka ku kp h kq (hb z0 (by simp)) (hb z1 (by simp))
  | [z0, z1, z2], hb, _ => y_204 ka ku kp h kq (hb z0 (by simp)) (hb z1 (by simp)) (hb z2 (by simp))
  | [z0, z1, z2, z3], hb, _ => y_205 ka ku kp h kq (hb z0 (by simp)) (hb z1 (by simp)) (hb z2 (by simp)) (hb z3 (by simp))
  | [z0, z1, z2, z3, z4], hb, _ => y_206 ka ku kp h kq (hb z0 (by simp)) (hb z1 (by simp)) (hb z2 (by simp)) (hb z3 (by simp)) (hb z4 (by simp))
  | [z0, z1, z2, z3, z4, z5], hb, _ => y_207 ka ku kp h kq (hb z0 (by simp)) (hb z1 (by simp)) (hb z2 (by simp)) (hb z3 (by simp)) (hb z4 (by simp)) (hb z5 (by simp))
  | [z0, z1, z2, z3, z4, z5, z6], hb, _ => y_208 ka ku kp h kq (hb z0 (by simp)) (hb z1 (by simp)) (hb z2 (by simp)) (hb z3 (by simp)) (hb z4 (by simp)) (hb z5 (by simp)) (hb z6 (by simp))
  | [z0, z1, z2, z3, z4, z5, z6, z7], hb, _ => y_209 ka ku kp h kq (hb z0 (by simp)) (hb z1 (by simp)) (hb z2 (by simp)) (hb z3 (by simp)) (hb z4 (by simp)) (hb z5 (by simp)) (hb z6 (by simp)) (hb z7 (by simp))
  | [z0, z1, z2, z3, z4, z5, z6, z7, z8], hb, _ => y_210 ka ku kp h kq (hb z0 (by simp)) (hb z1 (by simp)) (hb z2 (by simp)) (hb z3 (by simp)) (hb z4 (by simp)) (hb z5 (by simp)) (hb z6 (by simp)) (hb z7 (by simp)) (hb z8 (by simp))
  | [z0, z1, z2, z3, z4, z5, z6, z7, z8, z9], hb, _ => y_211 ka ku kp h kq (hb z0 (by simp)) (hb z1 (by simp)) (hb z2 (by simp)) (hb z3 (by simp)) (hb z4 (by simp)) (hb z5 (by simp)) (hb z6 (by simp)) (hb z7 (by simp)) (hb z8 (by simp)) (hb z9 (by simp))
  | _ :: _ :: _ :: _ :: _ :: _ :: _ :: _ :: _ :: _ :: _ :: _, _, h => by simp at h

theorem deco_none {a u p q : Tok} {n : Nat} (ka : a.type = T.AT) (ku : u.type = T.__ANON_2) (kp : p.type = T.LPAR) (kq : q.type = T.RPAR) :
    ∀ w4 : List Tok, Breaks w4 → w4.length ≤ 10 →
      Y N.decorator (nd "decorator" ([tk T.__ANON_2 u.text])) (a :: u :: p :: q :: w4) n
  | [], hb, _ => y_212 ka ku kp kq
  | [z0], hb, _ => y_213 ka ku kp kq (hb z0 (by simp))
  | [z0, z1], hb, _ => y_214 ka ku kp kq (hb z0 (by simp)) (hb z1 (by simp))
  | [z0, z1, z2], hb, _ => y_215 ka ku kp kq (hb z0 (by simp)) (hb z1 (by simp)) (hb z2 (by simp))
  | [z0, z1, z2, z3], hb, _ => y_216 ka ku kp kq (hb z0 (by simp)) (hb z1 (by simp)) (hb z2 (by simp)) (hb z3 (by simp))
  | [z0, z1, z2, z3, z4], hb, _ => y_217 ka ku kp kq (hb z0 (by simp)) (hb z1 (by simp)) (hb z2 (by simp)) (hb z3 (by simp)) (hb z4 (by simp))
  | [z0, z1, z2, z3, z4, z5], hb, _ => y_218 ka ku kp kq (hb z0 (by simp)) (hb z1 (by simp)) (hb z2 (by simp)) (hb z3 (by simp)) (hb z4 (by simp)) (hb z5 (by simp))
  | [z0, z1, z2, z3, z4, z5, z6], hb, _ => y_219 ka ku kp kq (hb z0 (by simp)) (hb z1 (by simp)) (hb z2 (by simp)) (hb z3 (by simp)) (hb z4 (by simp)) (hb z5 (by simp)) (hb z6 (by simp))
  | [z0, z1, z2, z3, z4, z5, z6, z7], hb, _ => y_220 ka ku kp kq (hb z0 (by simp)) (hb z1 (by simp)) (hb z2 (by simp)) (hb z3 (by simp)) (hb z4 (by simp)) (hb z5 (by simp)) (hb z6 (by simp)) (hb z7 (by simp))
  | [z0, z1, z2, z3, z4, z5, z6, z7, z8], hb, _ => y_221 ka ku kp kq (hb z0 (by simp)) (hb z1 (by simp)) (hb z2 (by simp)) (hb z3 (by simp)) (hb z4 (by simp)) (hb z5 (by simp)) (hb z6 (by simp)) (hb z7 (by simp)) (hb z8 (by simp))
  | [z0, z1, z2, z3, z4, z5, z6, z7, z8, z9], hb, _ => y_222 ka ku kp kq (hb z0 (by simp)) (hb z1 (by simp)) (hb z2 (by simp)) (hb z3 (by simp)) (hb z4 (by simp)) (hb z5 (by simp)) (hb z6 (by simp)) (hb z7 (by simp)) (hb z8 (by simp)) (hb z9 (by simp))
  | _ :: _ :: _ :: _ :: _ :: _ :: _ :: _ :: _ :: _ :: _ :: _, _, h => by simp at h

end Pycep
