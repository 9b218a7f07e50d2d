import Verif.Braun
/-
GENERATED by tools/gen_items.py. Do not edit.
Certificates about the automaton: not part of the model, only used (and checked) by the proofs.
Sets of terminals are bit masks.
-/
namespace Pycep
/-- LR items of a state behind at least one symbol: rule, position, what can follow -/
def itemTab : Bt (List (Nat × Nat × Nat)) :=
  (.n (.n (.n (.n (.n (.n (.n (.n (.n (.n .l [(301,4,0x8004000000000000)] .l)
  [(72,1,0x1000008000929f6020)] .l) [(239,1,0x1fffefbff89ebf6c7e)] (.n .l
  [(140,3,0x4004000000020074),(141,3,0x4004000000020074)] .l))
  [(27,3,0x1000008000929f6020),(28,3,0x1000008000929f6020)] (.n (.n (.n .l
  [(118,8,0x1060048000929f6074)] .l)
  [(144,1,0x1fffefbff89ebf6c7e),(251,1,0x1fffefbff89ebf6c7e),(251,3,0x1fffefbff89ebf6c7e),(252,1,0x1fffefbff89ebf6c7e),(253,1,0x1fffefbff89ebf6c7e),(254,1,0x1fffefbff89ebf6c7e),(255,1,0x1fffefbff89ebf6c7e),(256,1,0x1fffefbff89ebf6c7e),(257,1,0x1fffefbff89ebf6c7e),(258,1,0x1fffefbff89ebf6c7e),(264,1,0x1fffefbff89ebf6c7e),(265,1,0x1fffefbff89ebf6c7e),(267,1,0x1fffefbff89ebf6c7e),(268,1,0x1fffefbff89ebf6c7e),(275,1,0x1fffefbff89ebf6c7e),(276,1,0x1fffefbff89ebf6c7e),(278,1,0x1fffefbff89ebf6c7e),(279,1,0x1fffefbff89ebf6c7e),(280,1,0x1fffefbff89ebf6c7e),(285,1,0x1fffefbff89ebf6c7e),(286,1,0x1fffefbff89ebf6c7e),(287,1,0x1fffefbff89ebf6c7e),(288,1,0x1fffefbff89ebf6c7e),(289,1,0x1fffefbff89ebf6c7e),(290,1,0x1fffefbff89ebf6c7e),(291,1,0x1fffefbff89ebf6c7e)]
  .l) [(17,5,0x1000008000929f6020)] (.n .l
  [(288,5,0x1fffefbff89ebf6c7e),(342,1,0x8004000000000000),(343,1,0x8004000000000000)] .l)))
  [(4,2,0x1000008000929f6020),(5,2,0x1000008000929f6020),(6,2,0x1000008000929f6020),(7,2,0x1000008000929f6020)]
  (.n (.n (.n (.n .l [(111,7,0x1060048000929f6074)] .l) [(320,1,0x4004000000020074)] .l)
  [(30,4,0x1000008000929f6020)] (.n .l [(228,4,0x1fffefbff89ebf6c7e)] .l))
  [(17,4,0x1000008000929f6020),(18,4,0x1000008000929f6020)] (.n (.n (.n .l
  [(222,14,0x8000929a0000)] .l) [(338,2,0x8004000000000020),(339,2,0x8004000000000020)] .l)
  [(255,2,0x1fffefbff89ebf6c7e)] (.n .l
  [(216,8,0x8000929a0000),(217,8,0x8000929a0000),(218,8,0x8000929a0000),(219,8,0x8000929a0000),(220,8,0x8000929a0000),(221,8,0x8000929a0000),(222,8,0x8000929a0000)]
  .l)))) [(34,1,0x1000008000929f6020)] (.n (.n (.n (.n (.n .l
  [(144,1,0x6bf4d3ff800000000),(251,1,0x6bf4d3ff800000000),(252,1,0x6bf4d3ff800000000),(253,1,0x6bf4d3ff800000000),(254,1,0x6bf4d3ff800000000),(255,1,0x6bf4d3ff800000000),(256,1,0x6bf4d3ff800000000),(257,1,0x6bf4d3ff800000000),(258,1,0x6bf4d3ff800000000),(264,1,0x6bf4d3ff800000000),(265,1,0x6bf4d3ff800000000),(267,1,0x6bf4d3ff800000000),(268,1,0x6bf4d3ff800000000),(275,1,0x6bf4d3ff800000000),(276,1,0x6bf4d3ff800000000),(278,1,0x6bf4d3ff800000000),(279,1,0x6bf4d3ff800000000),(280,1,0x6bf4d3ff800000000),(285,1,0x6bf4d3ff800000000),(286,1,0x6bf4d3ff800000000),(287,1,0x6bf4d3ff800000000),(288,1,0x6bf4d3ff800000000),(289,1,0x6bf4d3ff800000000),(290,1,0x6bf4d3ff800000000),(291,1,0x6bf4d3ff800000000),(342,3,0x8004000000000000)]
  .l)
  [(179,5,0x8000929a0000),(180,5,0x8000929a0000),(181,5,0x8000929a0000),(182,5,0x8000929a0000),(183,5,0x8000929a0000),(184,5,0x8000929a0000),(185,5,0x8000929a0000),(186,5,0x8000929a0000),(187,5,0x8000929a0000),(188,5,0x8000929a0000),(189,5,0x8000929a0000)]
  .l) [(263,1,0x1fffefbff89ebf6c7e)] (.n .l
  [(102,4,0x1060048000929f6074),(103,4,0x1060048000929f6074),(104,4,0x1060048000929f6074),(105,4,0x1060048000929f6074)]
  .l)) [(64,2,0x1000008000929f6020),(65,2,0x1000008000929f6020),(66,2,0x1000008000929f6020)] (.n
  (.n (.n .l
  [(151,12,0x8000929a0000),(152,12,0x8000929a0000),(153,12,0x8000929a0000),(154,12,0x8000929a0000),(155,12,0x8000929a0000),(156,12,0x8000929a0000)]
  .l) [(123,1,0x2000000000000)] .l) [(265,2,0x1fffefbff89ebf6c7e)] (.n .l
  [(224,5,0x1fffefbff89ebf6c7e)] .l)))
  [(64,1,0x1000008000929f6020),(65,1,0x1000008000929f6020),(66,1,0x1000008000929f6020)] (.n (.n
  (.n (.n .l
  [(194,10,0x8000929a0000),(195,10,0x8000929a0000),(196,10,0x8000929a0000),(197,10,0x8000929a0000),(198,10,0x8000929a0000),(199,10,0x8000929a0000),(200,10,0x8000929a0000)]
  .l) [(308,2,0x88000000000000000)] .l)
  [(134,2,0x1fffefbff99ebf6c7e),(135,2,0x1fffefbff99ebf6c7e),(303,1,0x4000000000020074)] (.n .l
  [(300,2,0x8004000000000000)] .l))
  [(58,1,0x1fffefbff89ebf6c7e),(59,1,0x1fffefbff89ebf6c7e),(145,1,0x1fffefbff89ebf6c7e)] (.n (.n
  .l
  [(168,6,0x8000929a0000),(169,6,0x8000929a0000),(170,6,0x8000929a0000),(171,6,0x8000929a0000),(172,6,0x8000929a0000),(173,6,0x8000929a0000),(174,6,0x8000929a0000),(175,6,0x8000929a0000),(176,6,0x8000929a0000),(177,6,0x8000929a0000),(178,6,0x8000929a0000)]
  .l) [(41,2,0x1fffefbff89ebf6c7e)] (.n .l [(280,2,0x73fe93ff80c200c3e)] .l)))))
  [(4,1,0x1000008000929f6020),(5,1,0x1000008000929f6020),(6,1,0x1000008000929f6020),(7,1,0x1000008000929f6020)]
  (.n (.n (.n (.n (.n (.n .l
  [(193,9,0x8000929a0000),(194,9,0x8000929a0000),(195,9,0x8000929a0000),(196,9,0x8000929a0000),(197,9,0x8000929a0000),(198,9,0x8000929a0000),(199,9,0x8000929a0000),(200,9,0x8000929a0000)]
  .l) [(76,1,0x1000008000929f6020)] .l) [(247,1,0x1fffefbff89ebf6c7e)] (.n .l
  [(287,4,0x1fffefbff89ebf6c7e),(288,4,0x1fffefbff89ebf6c7e)] .l))
  [(20,3,0x1000008000929f6020),(21,3,0x1000008000929f6020)] (.n (.n (.n .l
  [(207,11,0x8000929a0000),(208,11,0x8000929a0000),(209,11,0x8000929a0000),(210,11,0x8000929a0000),(211,11,0x8000929a0000)]
  .l)
  [(144,1,0x1fffefbff89ebf6c7e),(251,1,0x1fffefbff89ebf6c7e),(252,1,0x1fffefbff89ebf6c7e),(253,1,0x1fffefbff89ebf6c7e),(254,1,0x1fffefbff89ebf6c7e),(255,1,0x1fffefbff89ebf6c7e),(256,1,0x1fffefbff89ebf6c7e),(257,1,0x1fffefbff89ebf6c7e),(258,1,0x1fffefbff89ebf6c7e),(264,1,0x1fffefbff89ebf6c7e),(265,1,0x1fffefbff89ebf6c7e),(267,1,0x1fffefbff89ebf6c7e),(268,1,0x1fffefbff89ebf6c7e),(275,1,0x1fffefbff89ebf6c7e),(276,1,0x1fffefbff89ebf6c7e),(278,1,0x1fffefbff89ebf6c7e),(279,1,0x1fffefbff89ebf6c7e),(279,3,0x1fffefbff89ebf6c7e),(280,1,0x1fffefbff89ebf6c7e),(285,1,0x1fffefbff89ebf6c7e),(286,1,0x1fffefbff89ebf6c7e),(287,1,0x1fffefbff89ebf6c7e),(288,1,0x1fffefbff89ebf6c7e),(289,1,0x1fffefbff89ebf6c7e),(290,1,0x1fffefbff89ebf6c7e),(291,1,0x1fffefbff89ebf6c7e)]
  .l) [(307,2,0x18a1148008929f6020)] (.n .l
  [(114,5,0x1060048000929f6074),(115,5,0x1060048000929f6074),(116,5,0x1060048000929f6074),(117,5,0x1060048000929f6074),(144,1,0x73fe93ff80c200c3e),(251,1,0x73fe93ff80c200c3e),(252,1,0x73fe93ff80c200c3e),(253,1,0x73fe93ff80c200c3e),(254,1,0x73fe93ff80c200c3e),(255,1,0x73fe93ff80c200c3e),(256,1,0x73fe93ff80c200c3e),(257,1,0x73fe93ff80c200c3e),(258,1,0x73fe93ff80c200c3e),(264,1,0x73fe93ff80c200c3e),(265,1,0x73fe93ff80c200c3e),(267,1,0x73fe93ff80c200c3e),(268,1,0x73fe93ff80c200c3e),(275,1,0x73fe93ff80c200c3e),(276,1,0x73fe93ff80c200c3e),(278,1,0x73fe93ff80c200c3e),(279,1,0x73fe93ff80c200c3e),(280,1,0x73fe93ff80c200c3e),(285,1,0x73fe93ff80c200c3e),(286,1,0x73fe93ff80c200c3e),(287,1,0x73fe93ff80c200c3e),(288,1,0x73fe93ff80c200c3e),(289,1,0x73fe93ff80c200c3e),(290,1,0x73fe93ff80c200c3e),(291,1,0x73fe93ff80c200c3e)]
  .l))) [(35,2,0x1000008000929f6020)] (.n (.n (.n (.n .l
  [(125,6,0x1000008000929f6020),(144,1,0x163f49bff8929f6020),(251,1,0x163f49bff8929f6020),(252,1,0x163f49bff8929f6020),(253,1,0x163f49bff8929f6020),(254,1,0x163f49bff8929f6020),(255,1,0x163f49bff8929f6020),(256,1,0x163f49bff8929f6020),(257,1,0x163f49bff8929f6020),(258,1,0x163f49bff8929f6020),(264,1,0x163f49bff8929f6020),(265,1,0x163f49bff8929f6020),(267,1,0x163f49bff8929f6020),(268,1,0x163f49bff8929f6020),(275,1,0x163f49bff8929f6020),(276,1,0x163f49bff8929f6020),(278,1,0x163f49bff8929f6020),(279,1,0x163f49bff8929f6020),(280,1,0x163f49bff8929f6020),(285,1,0x163f49bff8929f6020),(286,1,0x163f49bff8929f6020),(287,1,0x163f49bff8929f6020),(288,1,0x163f49bff8929f6020),(289,1,0x163f49bff8929f6020),(290,1,0x163f49bff8929f6020),(291,1,0x163f49bff8929f6020)]
  .l) [(23,6,0x1000008000929f6020)] .l)
  [(212,4,0x8000929a0000),(213,4,0x8000929a0000),(214,4,0x8000929a0000),(215,4,0x8000929a0000),(216,4,0x8000929a0000),(217,4,0x8000929a0000),(218,4,0x8000929a0000),(219,4,0x8000929a0000),(220,4,0x8000929a0000),(221,4,0x8000929a0000),(222,4,0x8000929a0000)]
  (.n .l [(236,4,0x1fffefbff89ebf6c7e)] .l)) [(91,1,0x18a1148008929f6020)] (.n (.n (.n .l
  [(199,15,0x8000929a0000),(200,15,0x8000929a0000)] .l) [(125,2,0x1000008000929f6020)] .l)
  [(110,2,0x1060048000929f6074),(111,2,0x1060048000929f6074),(112,2,0x1060048000929f6074),(113,2,0x1060048000929f6074),(114,2,0x1060048000929f6074),(115,2,0x1060048000929f6074),(116,2,0x1060048000929f6074),(117,2,0x1060048000929f6074),(118,2,0x1060048000929f6074),(119,2,0x1060048000929f6074),(120,2,0x1060048000929f6074),(121,2,0x1060048000929f6074)]
  (.n .l [(342,2,0x8004000000000000)] .l)))) [(292,2,0x1000008000929f6020)] (.n (.n (.n (.n (.n .l
  [(98,7,0x1060048000929f6074),(99,7,0x1060048000929f6074),(144,1,0x73f493ff800000020),(251,1,0x73f493ff800000020),(252,1,0x73f493ff800000020),(253,1,0x73f493ff800000020),(254,1,0x73f493ff800000020),(255,1,0x73f493ff800000020),(256,1,0x73f493ff800000020),(257,1,0x73f493ff800000020),(258,1,0x73f493ff800000020),(264,1,0x73f493ff800000020),(265,1,0x73f493ff800000020),(267,1,0x73f493ff800000020),(268,1,0x73f493ff800000020),(275,1,0x73f493ff800000020),(276,1,0x73f493ff800000020),(278,1,0x73f493ff800000020),(279,1,0x73f493ff800000020),(280,1,0x73f493ff800000020),(285,1,0x73f493ff800000020),(286,1,0x73f493ff800000020),(287,1,0x73f493ff800000020),(288,1,0x73f493ff800000020),(289,1,0x73f493ff800000020),(290,1,0x73f493ff800000020),(291,1,0x73f493ff800000020)]
  .l) [(136,3,0x1fffefbff99ebf6c7e)] .l) [(282,1,0x1fffefbff89ebf6c7e)] (.n .l
  [(311,1,0x103a500000c200c3e),(316,3,0x103a100000c200c1e),(317,3,0x103a100000c200c1e)] .l))
  [(6,4,0x1000008000929f6020)] (.n (.n (.n .l
  [(187,13,0x8000929a0000),(188,13,0x8000929a0000),(189,13,0x8000929a0000)] .l)
  [(310,1,0x183a500000c200c3e)] .l) [(280,2,0x1fffefbff89ebf6c7e)] (.n .l
  [(64,7,0x1000008000929f6020)] .l))) [(96,2,0x4004000001000000)] (.n (.n (.n (.n .l
  [(102,8,0x1060048000929f6074)] .l) [(290,3,0x1fffefbff89ebf6c7e)] .l) [(127,1,0x2000000000000)]
  (.n .l
  [(191,7,0x8000929a0000),(192,7,0x8000929a0000),(193,7,0x8000929a0000),(194,7,0x8000929a0000),(195,7,0x8000929a0000),(196,7,0x8000929a0000),(197,7,0x8000929a0000),(198,7,0x8000929a0000),(199,7,0x8000929a0000),(200,7,0x8000929a0000)]
  .l)) [(48,1,0x1fffefbff89ebf6c7e)] (.n (.n .l
  [(321,1,0x4004000000020074),(328,3,0x4000000000020054),(329,3,0x4000000000020054)] .l)
  [(144,1,0x1fffefbff89ebf6c7e),(251,1,0x1fffefbff89ebf6c7e),(252,1,0x1fffefbff89ebf6c7e),(253,1,0x1fffefbff89ebf6c7e),(254,1,0x1fffefbff89ebf6c7e),(255,1,0x1fffefbff89ebf6c7e),(256,1,0x1fffefbff89ebf6c7e),(257,1,0x1fffefbff89ebf6c7e),(258,1,0x1fffefbff89ebf6c7e),(264,1,0x1fffefbff89ebf6c7e),(265,1,0x1fffefbff89ebf6c7e),(266,2,0x1fffefbff89ebf6c7e),(267,1,0x1fffefbff89ebf6c7e),(268,1,0x1fffefbff89ebf6c7e),(275,1,0x1fffefbff89ebf6c7e),(276,1,0x1fffefbff89ebf6c7e),(278,1,0x1fffefbff89ebf6c7e),(279,1,0x1fffefbff89ebf6c7e),(280,1,0x1fffefbff89ebf6c7e),(285,1,0x1fffefbff89ebf6c7e),(286,1,0x1fffefbff89ebf6c7e),(287,1,0x1fffefbff89ebf6c7e),(288,1,0x1fffefbff89ebf6c7e),(289,1,0x1fffefbff89ebf6c7e),(290,1,0x1fffefbff89ebf6c7e),(291,1,0x1fffefbff89ebf6c7e)]
  (.n .l
  [(118,6,0x1060048000929f6074),(119,6,0x1060048000929f6074),(144,1,0x73f493ff800000020),(251,1,0x73f493ff800000020),(252,1,0x73f493ff800000020),(253,1,0x73f493ff800000020),(254,1,0x73f493ff800000020),(255,1,0x73f493ff800000020),(256,1,0x73f493ff800000020),(257,1,0x73f493ff800000020),(258,1,0x73f493ff800000020),(264,1,0x73f493ff800000020),(265,1,0x73f493ff800000020),(267,1,0x73f493ff800000020),(268,1,0x73f493ff800000020),(275,1,0x73f493ff800000020),(276,1,0x73f493ff800000020),(278,1,0x73f493ff800000020),(279,1,0x73f493ff800000020),(280,1,0x73f493ff800000020),(285,1,0x73f493ff800000020),(286,1,0x73f493ff800000020),(287,1,0x73f493ff800000020),(288,1,0x73f493ff800000020),(289,1,0x73f493ff800000020),(290,1,0x73f493ff800000020),(291,1,0x73f493ff800000020)]
  .l)))))) [(292,1,0x1000008000929f6020),(293,1,0x1000008000929f6020)] (.n (.n (.n (.n (.n (.n (.n
  .l
  [(148,9,0x8000929a0000),(149,9,0x8000929a0000),(150,9,0x8000929a0000),(151,9,0x8000929a0000),(152,9,0x8000929a0000),(153,9,0x8000929a0000),(154,9,0x8000929a0000),(155,9,0x8000929a0000),(156,9,0x8000929a0000)]
  .l) [(125,1,0x1000008000929f6020)] .l) [(243,1,0x1fffefbff89ebf6c7e)] (.n .l
  [(17,7,0x1000008000929f6020)] .l)) [(86,1,0x18a0148008929f6020),(87,1,0x18a0148008929f6020)] (.n
  (.n (.n .l
  [(162,11,0x8000929a0000),(163,11,0x8000929a0000),(164,11,0x8000929a0000),(165,11,0x8000929a0000),(166,11,0x8000929a0000),(167,11,0x8000929a0000)]
  .l)
  [(144,1,0x73f493ff800000000),(251,1,0x73f493ff800000000),(252,1,0x73f493ff800000000),(253,1,0x73f493ff800000000),(254,1,0x73f493ff800000000),(255,1,0x73f493ff800000000),(256,1,0x73f493ff800000000),(257,1,0x73f493ff800000000),(258,1,0x73f493ff800000000),(264,1,0x73f493ff800000000),(265,1,0x73f493ff800000000),(267,1,0x73f493ff800000000),(268,1,0x73f493ff800000000),(275,1,0x73f493ff800000000),(276,1,0x73f493ff800000000),(278,1,0x73f493ff800000000),(279,1,0x73f493ff800000000),(280,1,0x73f493ff800000000),(285,1,0x73f493ff800000000),(286,1,0x73f493ff800000000),(286,3,0x1fffefbff89ebf6c7e),(287,1,0x73f493ff800000000),(288,1,0x73f493ff800000000),(289,1,0x73f493ff800000000),(290,1,0x73f493ff800000000),(291,1,0x73f493ff800000000)]
  .l) [(28,5,0x1000008000929f6020)] (.n .l
  [(145,5,0x1fffefbff89ebf6c7e),(311,1,0x8004000000000000)] .l)))
  [(17,2,0x1000008000929f6020),(18,2,0x1000008000929f6020),(19,2,0x1000008000929f6020)] (.n (.n
  (.n (.n .l [(119,7,0x1060048000929f6074)] .l) [(9,6,0x1000008000929f6020)] .l)
  [(130,1,0x1fffefbff89ebf6c7e),(131,1,0x1fffefbff89ebf6c7e),(132,1,0x1fffefbff89ebf6c7e),(133,1,0x1fffefbff89ebf6c7e)]
  (.n .l [(232,4,0x1fffefbff89ebf6c7e)] .l))
  [(13,4,0x1000008000929f6020),(14,4,0x1000008000929f6020)] (.n (.n (.n .l
  [(166,15,0x8000929a0000),(167,15,0x8000929a0000)] .l) [(336,2,0x8004000000000020)] .l)
  [(56,1,0x63f4c3ff800000000),(57,1,0x63f4c3ff800000000),(58,2,0x1fffefbff89ebf6c7e),(59,2,0x1fffefbff89ebf6c7e)]
  (.n .l [(81,5,0x4000000000020074)] .l))))
  [(146,1,0x8000929a0000),(147,1,0x8000929a0000),(148,1,0x8000929a0000),(149,1,0x8000929a0000),(150,1,0x8000929a0000),(151,1,0x8000929a0000),(152,1,0x8000929a0000),(153,1,0x8000929a0000),(154,1,0x8000929a0000),(155,1,0x8000929a0000),(156,1,0x8000929a0000),(157,1,0x8000929a0000),(158,1,0x8000929a0000),(159,1,0x8000929a0000),(160,1,0x8000929a0000),(161,1,0x8000929a0000),(162,1,0x8000929a0000),(163,1,0x8000929a0000),(164,1,0x8000929a0000),(165,1,0x8000929a0000),(166,1,0x8000929a0000),(167,1,0x8000929a0000),(168,1,0x8000929a0000),(169,1,0x8000929a0000),(170,1,0x8000929a0000),(171,1,0x8000929a0000),(172,1,0x8000929a0000),(173,1,0x8000929a0000),(174,1,0x8000929a0000),(175,1,0x8000929a0000),(176,1,0x8000929a0000),(177,1,0x8000929a0000),(178,1,0x8000929a0000),(179,1,0x8000929a0000),(180,1,0x8000929a0000),(181,1,0x8000929a0000),(182,1,0x8000929a0000),(183,1,0x8000929a0000),(184,1,0x8000929a0000),(185,1,0x8000929a0000),(186,1,0x8000929a0000),(187,1,0x8000929a0000),(188,1,0x8000929a0000),(189,1,0x8000929a0000),(190,1,0x8000929a0000),(191,1,0x8000929a0000),(192,1,0x8000929a0000),(193,1,0x8000929a0000),(194,1,0x8000929a0000),(195,1,0x8000929a0000),(196,1,0x8000929a0000),(197,1,0x8000929a0000),(198,1,0x8000929a0000),(199,1,0x8000929a0000),(200,1,0x8000929a0000),(201,1,0x8000929a0000),(202,1,0x8000929a0000),(203,1,0x8000929a0000),(204,1,0x8000929a0000),(205,1,0x8000929a0000),(206,1,0x8000929a0000),(207,1,0x8000929a0000),(208,1,0x8000929a0000),(209,1,0x8000929a0000),(210,1,0x8000929a0000),(211,1,0x8000929a0000),(212,1,0x8000929a0000),(213,1,0x8000929a0000),(214,1,0x8000929a0000),(215,1,0x8000929a0000),(216,1,0x8000929a0000),(217,1,0x8000929a0000),(218,1,0x8000929a0000),(219,1,0x8000929a0000),(220,1,0x8000929a0000),(221,1,0x8000929a0000),(222,1,0x8000929a0000)]
  (.n (.n (.n (.n (.n .l [(108,7,0x1060048000929f6074)] .l) [(299,3,0x4004000000000000)] .l)
  [(272,1,0x1fffefbff89ebf6c7e)] (.n .l
  [(118,4,0x1060048000929f6074),(119,4,0x1060048000929f6074),(120,4,0x1060048000929f6074),(121,4,0x1060048000929f6074)]
  .l)) [(298,1,0x4004000000000000)] (.n (.n (.n .l
  [(196,12,0x8000929a0000),(197,12,0x8000929a0000),(198,12,0x8000929a0000),(199,12,0x8000929a0000),(200,12,0x8000929a0000)]
  .l)
  [(144,1,0x73fed3ff80c200c3e),(251,1,0x73fed3ff80c200c3e),(252,1,0x73fed3ff80c200c3e),(253,1,0x73fed3ff80c200c3e),(254,1,0x73fed3ff80c200c3e),(255,1,0x73fed3ff80c200c3e),(256,1,0x73fed3ff80c200c3e),(257,1,0x73fed3ff80c200c3e),(258,1,0x73fed3ff80c200c3e),(264,1,0x73fed3ff80c200c3e),(265,1,0x73fed3ff80c200c3e),(267,1,0x73fed3ff80c200c3e),(268,1,0x73fed3ff80c200c3e),(275,1,0x73fed3ff80c200c3e),(276,1,0x73fed3ff80c200c3e),(278,1,0x73fed3ff80c200c3e),(279,1,0x73fed3ff80c200c3e),(280,1,0x73fed3ff80c200c3e),(285,1,0x73fed3ff80c200c3e),(286,1,0x73fed3ff80c200c3e),(287,1,0x73fed3ff80c200c3e),(288,1,0x73fed3ff80c200c3e),(289,1,0x73fed3ff80c200c3e),(290,1,0x73fed3ff80c200c3e),(291,1,0x73fed3ff80c200c3e),(316,2,0x103a100000c200c1e),(317,2,0x103a100000c200c1e),(318,2,0x103a100000c200c1e),(319,2,0x103a100000c200c1e)]
  .l) [(278,2,0x1fffefbff89ebf6c7e)] (.n .l [(232,5,0x1fffefbff89ebf6c7e)] .l)))
  [(2,3,0x1000008000929f6020)] (.n (.n (.n (.n .l
  [(144,1,0x1fffefbff89ebf6c7e),(145,8,0x1fffefbff89ebf6c7e),(251,1,0x1fffefbff89ebf6c7e),(252,1,0x1fffefbff89ebf6c7e),(253,1,0x1fffefbff89ebf6c7e),(254,1,0x1fffefbff89ebf6c7e),(255,1,0x1fffefbff89ebf6c7e),(256,1,0x1fffefbff89ebf6c7e),(257,1,0x1fffefbff89ebf6c7e),(258,1,0x1fffefbff89ebf6c7e),(264,1,0x1fffefbff89ebf6c7e),(265,1,0x1fffefbff89ebf6c7e),(267,1,0x1fffefbff89ebf6c7e),(268,1,0x1fffefbff89ebf6c7e),(275,1,0x1fffefbff89ebf6c7e),(276,1,0x1fffefbff89ebf6c7e),(278,1,0x1fffefbff89ebf6c7e),(279,1,0x1fffefbff89ebf6c7e),(280,1,0x1fffefbff89ebf6c7e),(285,1,0x1fffefbff89ebf6c7e),(286,1,0x1fffefbff89ebf6c7e),(287,1,0x1fffefbff89ebf6c7e),(288,1,0x1fffefbff89ebf6c7e),(289,1,0x1fffefbff89ebf6c7e),(290,1,0x1fffefbff89ebf6c7e),(291,1,0x1fffefbff89ebf6c7e)]
  .l)
  [(144,1,0x1fffefbff89ebf6c7e),(251,1,0x1fffefbff89ebf6c7e),(252,1,0x1fffefbff89ebf6c7e),(253,1,0x1fffefbff89ebf6c7e),(254,1,0x1fffefbff89ebf6c7e),(255,1,0x1fffefbff89ebf6c7e),(256,1,0x1fffefbff89ebf6c7e),(257,1,0x1fffefbff89ebf6c7e),(258,1,0x1fffefbff89ebf6c7e),(264,1,0x1fffefbff89ebf6c7e),(265,1,0x1fffefbff89ebf6c7e),(265,3,0x1fffefbff89ebf6c7e),(267,1,0x1fffefbff89ebf6c7e),(268,1,0x1fffefbff89ebf6c7e),(275,1,0x1fffefbff89ebf6c7e),(276,1,0x1fffefbff89ebf6c7e),(278,1,0x1fffefbff89ebf6c7e),(279,1,0x1fffefbff89ebf6c7e),(280,1,0x1fffefbff89ebf6c7e),(285,1,0x1fffefbff89ebf6c7e),(286,1,0x1fffefbff89ebf6c7e),(287,1,0x1fffefbff89ebf6c7e),(288,1,0x1fffefbff89ebf6c7e),(289,1,0x1fffefbff89ebf6c7e),(290,1,0x1fffefbff89ebf6c7e),(291,1,0x1fffefbff89ebf6c7e)]
  .l) [(302,1,0x143a100000c220c7e)] (.n .l
  [(146,7,0x8000929a0000),(147,7,0x8000929a0000),(148,7,0x8000929a0000),(149,7,0x8000929a0000),(150,7,0x8000929a0000),(151,7,0x8000929a0000),(152,7,0x8000929a0000),(153,7,0x8000929a0000),(154,7,0x8000929a0000),(155,7,0x8000929a0000),(156,7,0x8000929a0000)]
  .l)) [(40,1,0x1fffefbff89ebf6c7e)] (.n (.n .l
  [(214,6,0x8000929a0000),(215,6,0x8000929a0000),(216,6,0x8000929a0000),(217,6,0x8000929a0000),(218,6,0x8000929a0000),(219,6,0x8000929a0000),(220,6,0x8000929a0000),(221,6,0x8000929a0000),(222,6,0x8000929a0000)]
  .l)
  [(144,1,0x6bf4d3ff800000020),(232,2,0x1fffefbff89ebf6c7e),(233,2,0x1fffefbff89ebf6c7e),(234,2,0x1fffefbff89ebf6c7e),(235,2,0x1fffefbff89ebf6c7e),(251,1,0x6bf4d3ff800000020),(252,1,0x6bf4d3ff800000020),(253,1,0x6bf4d3ff800000020),(254,1,0x6bf4d3ff800000020),(255,1,0x6bf4d3ff800000020),(256,1,0x6bf4d3ff800000020),(257,1,0x6bf4d3ff800000020),(258,1,0x6bf4d3ff800000020),(264,1,0x6bf4d3ff800000020),(265,1,0x6bf4d3ff800000020),(267,1,0x6bf4d3ff800000020),(268,1,0x6bf4d3ff800000020),(275,1,0x6bf4d3ff800000020),(276,1,0x6bf4d3ff800000020),(278,1,0x6bf4d3ff800000020),(279,1,0x6bf4d3ff800000020),(280,1,0x6bf4d3ff800000020),(285,1,0x6bf4d3ff800000020),(286,1,0x6bf4d3ff800000020),(287,1,0x6bf4d3ff800000020),(288,1,0x6bf4d3ff800000020),(289,1,0x6bf4d3ff800000020),(290,1,0x6bf4d3ff800000020),(291,1,0x6bf4d3ff800000020)]
  (.n .l
  [(110,6,0x1060048000929f6074),(111,6,0x1060048000929f6074),(144,1,0x73f493ff800000020),(251,1,0x73f493ff800000020),(252,1,0x73f493ff800000020),(253,1,0x73f493ff800000020),(254,1,0x73f493ff800000020),(255,1,0x73f493ff800000020),(256,1,0x73f493ff800000020),(257,1,0x73f493ff800000020),(258,1,0x73f493ff800000020),(264,1,0x73f493ff800000020),(265,1,0x73f493ff800000020),(267,1,0x73f493ff800000020),(268,1,0x73f493ff800000020),(275,1,0x73f493ff800000020),(276,1,0x73f493ff800000020),(278,1,0x73f493ff800000020),(279,1,0x73f493ff800000020),(280,1,0x73f493ff800000020),(285,1,0x73f493ff800000020),(286,1,0x73f493ff800000020),(287,1,0x73f493ff800000020),(288,1,0x73f493ff800000020),(289,1,0x73f493ff800000020),(290,1,0x73f493ff800000020),(291,1,0x73f493ff800000020)]
  .l))))) [(20,1,0x1000008000929f6020),(21,1,0x1000008000929f6020),(22,1,0x1000008000929f6020)]
  (.n (.n (.n (.n (.n (.n .l [(80,6,0x4000000000020074)] .l)
  [(64,4,0x1000008000929f6020),(65,4,0x1000008000929f6020)] .l) [(259,1,0x1fffefbff89ebf6c7e)] (.n
  .l [(268,4,0x1fffefbff89ebf6c7e)] .l)) [(92,1,0x10000000008000)] (.n (.n (.n .l
  [(98,9,0x1060048000929f6074)] .l)
  [(98,3,0x1060048000929f6074),(99,3,0x1060048000929f6074),(100,3,0x1060048000929f6074),(101,3,0x1060048000929f6074),(102,3,0x1060048000929f6074),(103,3,0x1060048000929f6074),(104,3,0x1060048000929f6074),(105,3,0x1060048000929f6074),(106,3,0x1060048000929f6074),(107,3,0x1060048000929f6074),(108,3,0x1060048000929f6074),(109,3,0x1060048000929f6074)]
  .l) [(21,5,0x1000008000929f6020)] (.n .l [(124,3,0x2000000000000)] .l)))
  [(29,2,0x1000008000929f6020),(30,2,0x1000008000929f6020)] (.n (.n (.n (.n .l
  [(149,10,0x8000929a0000),(150,10,0x8000929a0000),(151,10,0x8000929a0000),(152,10,0x8000929a0000),(153,10,0x8000929a0000),(154,10,0x8000929a0000),(155,10,0x8000929a0000),(156,10,0x8000929a0000)]
  .l) [(31,6,0x1000008000929f6020)] .l) [(61,4,0x1000008000929f6020)] (.n .l
  [(144,1,0x1e3f49bff8929f6020),(251,1,0x1e3f49bff8929f6020),(252,1,0x1e3f49bff8929f6020),(253,1,0x1e3f49bff8929f6020),(254,1,0x1e3f49bff8929f6020),(255,1,0x1e3f49bff8929f6020),(256,1,0x1e3f49bff8929f6020),(257,1,0x1e3f49bff8929f6020),(258,1,0x1e3f49bff8929f6020),(264,1,0x1e3f49bff8929f6020),(265,1,0x1e3f49bff8929f6020),(267,1,0x1e3f49bff8929f6020),(268,1,0x1e3f49bff8929f6020),(275,1,0x1e3f49bff8929f6020),(276,1,0x1e3f49bff8929f6020),(278,1,0x1e3f49bff8929f6020),(279,1,0x1e3f49bff8929f6020),(280,1,0x1e3f49bff8929f6020),(285,1,0x1e3f49bff8929f6020),(286,1,0x1e3f49bff8929f6020),(287,1,0x1e3f49bff8929f6020),(288,1,0x1e3f49bff8929f6020),(289,1,0x1e3f49bff8929f6020),(290,1,0x1e3f49bff8929f6020),(291,1,0x1e3f49bff8929f6020),(305,3,0x1800008000929f6020)]
  .l)) [(22,4,0x1000008000929f6020)] (.n (.n (.n .l [(200,16,0x8000929a0000)] .l)
  [(64,5,0x1000008000929f6020),(301,1,0x8004000000000000)] .l) [(52,2,0x1fffefbff89ebf6c7e)] (.n
  .l
  [(106,6,0x1060048000929f6074),(107,6,0x1060048000929f6074),(108,6,0x1060048000929f6074),(109,6,0x1060048000929f6074),(144,1,0x73fe93ff80c200c3e),(251,1,0x73fe93ff80c200c3e),(252,1,0x73fe93ff80c200c3e),(253,1,0x73fe93ff80c200c3e),(254,1,0x73fe93ff80c200c3e),(255,1,0x73fe93ff80c200c3e),(256,1,0x73fe93ff80c200c3e),(257,1,0x73fe93ff80c200c3e),(258,1,0x73fe93ff80c200c3e),(264,1,0x73fe93ff80c200c3e),(265,1,0x73fe93ff80c200c3e),(267,1,0x73fe93ff80c200c3e),(268,1,0x73fe93ff80c200c3e),(275,1,0x73fe93ff80c200c3e),(276,1,0x73fe93ff80c200c3e),(278,1,0x73fe93ff80c200c3e),(279,1,0x73fe93ff80c200c3e),(280,1,0x73fe93ff80c200c3e),(285,1,0x73fe93ff80c200c3e),(286,1,0x73fe93ff80c200c3e),(287,1,0x73fe93ff80c200c3e),(288,1,0x73fe93ff80c200c3e),(289,1,0x73fe93ff80c200c3e),(290,1,0x73fe93ff80c200c3e),(291,1,0x73fe93ff80c200c3e)]
  .l)))) [(62,1,0x1000008000929f6020)] (.n (.n (.n (.n (.n .l [(114,7,0x1060048000929f6074)] .l)
  [(134,3,0x1fffefbff99ebf6c7e),(328,1,0x4000000000020054),(329,1,0x4000000000020054),(330,1,0x4000000000020054),(331,1,0x4000000000020054),(332,1,0x4000000000020054),(333,1,0x4000000000020054)]
  .l) [(277,1,0x1fffefbff89ebf6c7e)] (.n .l
  [(144,1,0x7bfed3ff80c200c3e),(251,1,0x7bfed3ff80c200c3e),(252,1,0x7bfed3ff80c200c3e),(253,1,0x7bfed3ff80c200c3e),(254,1,0x7bfed3ff80c200c3e),(255,1,0x7bfed3ff80c200c3e),(256,1,0x7bfed3ff80c200c3e),(257,1,0x7bfed3ff80c200c3e),(258,1,0x7bfed3ff80c200c3e),(264,1,0x7bfed3ff80c200c3e),(265,1,0x7bfed3ff80c200c3e),(267,1,0x7bfed3ff80c200c3e),(268,1,0x7bfed3ff80c200c3e),(275,1,0x7bfed3ff80c200c3e),(276,1,0x7bfed3ff80c200c3e),(278,1,0x7bfed3ff80c200c3e),(279,1,0x7bfed3ff80c200c3e),(280,1,0x7bfed3ff80c200c3e),(285,1,0x7bfed3ff80c200c3e),(286,1,0x7bfed3ff80c200c3e),(287,1,0x7bfed3ff80c200c3e),(288,1,0x7bfed3ff80c200c3e),(289,1,0x7bfed3ff80c200c3e),(290,1,0x7bfed3ff80c200c3e),(291,1,0x7bfed3ff80c200c3e),(310,2,0x183a500000c200c3e)]
  .l)) [(69,1,0x1000008000929f6020)] (.n (.n (.n .l
  [(176,14,0x8000929a0000),(177,14,0x8000929a0000),(178,14,0x8000929a0000)] .l)
  [(230,3,0x1fffefbff89ebf6c7e)] .l) [(275,2,0x1fffefbff89ebf6c7e)] (.n .l
  [(170,8,0x8000929a0000),(171,8,0x8000929a0000),(172,8,0x8000929a0000),(173,8,0x8000929a0000),(174,8,0x8000929a0000),(175,8,0x8000929a0000),(176,8,0x8000929a0000),(177,8,0x8000929a0000),(178,8,0x8000929a0000)]
  .l)))
  [(9,3,0x1000008000929f6020),(10,3,0x1000008000929f6020),(11,3,0x1000008000929f6020),(12,3,0x1000008000929f6020)]
  (.n (.n (.n (.n .l [(98,8,0x1060048000929f6074)] .l)
  [(144,1,0x1fffefbff89ebf6c7e),(251,1,0x1fffefbff89ebf6c7e),(252,1,0x1fffefbff89ebf6c7e),(253,1,0x1fffefbff89ebf6c7e),(254,1,0x1fffefbff89ebf6c7e),(255,1,0x1fffefbff89ebf6c7e),(256,1,0x1fffefbff89ebf6c7e),(257,1,0x1fffefbff89ebf6c7e),(258,1,0x1fffefbff89ebf6c7e),(264,1,0x1fffefbff89ebf6c7e),(265,1,0x1fffefbff89ebf6c7e),(267,1,0x1fffefbff89ebf6c7e),(267,3,0x1fffefbff89ebf6c7e),(268,1,0x1fffefbff89ebf6c7e),(275,1,0x1fffefbff89ebf6c7e),(276,1,0x1fffefbff89ebf6c7e),(278,1,0x1fffefbff89ebf6c7e),(279,1,0x1fffefbff89ebf6c7e),(280,1,0x1fffefbff89ebf6c7e),(285,1,0x1fffefbff89ebf6c7e),(286,1,0x1fffefbff89ebf6c7e),(287,1,0x1fffefbff89ebf6c7e),(288,1,0x1fffefbff89ebf6c7e),(289,1,0x1fffefbff89ebf6c7e),(290,1,0x1fffefbff89ebf6c7e),(291,1,0x1fffefbff89ebf6c7e)]
  .l) [(11,5,0x1000008000929f6020)] (.n .l
  [(138,4,0x4004000000020074),(268,2,0x67f4d3ff800020074)] .l)) [(53,1,0x1fffefbff89ebf6c7e)] (.n
  (.n .l [(321,2,0x4004000000020074)] .l)
  [(70,1,0x1000008000929f6020),(144,1,0x163f49bff8929f6020),(251,1,0x163f49bff8929f6020),(252,1,0x163f49bff8929f6020),(253,1,0x163f49bff8929f6020),(254,1,0x163f49bff8929f6020),(255,1,0x163f49bff8929f6020),(256,1,0x163f49bff8929f6020),(257,1,0x163f49bff8929f6020),(258,1,0x163f49bff8929f6020),(264,1,0x163f49bff8929f6020),(265,1,0x163f49bff8929f6020),(267,1,0x163f49bff8929f6020),(268,1,0x163f49bff8929f6020),(275,1,0x163f49bff8929f6020),(276,1,0x163f49bff8929f6020),(278,1,0x163f49bff8929f6020),(279,1,0x163f49bff8929f6020),(280,1,0x163f49bff8929f6020),(285,1,0x163f49bff8929f6020),(286,1,0x163f49bff8929f6020),(287,1,0x163f49bff8929f6020),(288,1,0x163f49bff8929f6020),(289,1,0x163f49bff8929f6020),(290,1,0x163f49bff8929f6020),(291,1,0x163f49bff8929f6020)]
  (.n .l [(224,6,0x1fffefbff89ebf6c7e)] .l))))))) [] (.n (.n (.n (.n (.n (.n (.n (.n .l
  [(171,9,0x8000929a0000),(172,9,0x8000929a0000),(173,9,0x8000929a0000),(174,9,0x8000929a0000),(175,9,0x8000929a0000),(176,9,0x8000929a0000),(177,9,0x8000929a0000),(178,9,0x8000929a0000)]
  .l) [(74,1,0x1000008000929f6020)] .l) [(241,1,0x1fffefbff89ebf6c7e)] (.n .l
  [(78,3,0x4000000000020074),(79,3,0x4000000000020074),(80,3,0x4000000000020074),(81,3,0x4000000000020074),(82,3,0x4000000000020074),(83,3,0x4000000000020074)]
  .l)) [(35,3,0x1000008000929f6020)] (.n (.n (.n .l [(124,6,0x2000000000000)] .l)
  [(144,1,0x1fffefbff89ebf6c7e),(251,1,0x1fffefbff89ebf6c7e),(252,1,0x1fffefbff89ebf6c7e),(253,1,0x1fffefbff89ebf6c7e),(254,1,0x1fffefbff89ebf6c7e),(255,1,0x1fffefbff89ebf6c7e),(256,1,0x1fffefbff89ebf6c7e),(257,1,0x1fffefbff89ebf6c7e),(258,1,0x1fffefbff89ebf6c7e),(264,1,0x1fffefbff89ebf6c7e),(265,1,0x1fffefbff89ebf6c7e),(267,1,0x1fffefbff89ebf6c7e),(268,1,0x1fffefbff89ebf6c7e),(275,1,0x1fffefbff89ebf6c7e),(275,3,0x1fffefbff89ebf6c7e),(276,1,0x1fffefbff89ebf6c7e),(278,1,0x1fffefbff89ebf6c7e),(279,1,0x1fffefbff89ebf6c7e),(280,1,0x1fffefbff89ebf6c7e),(285,1,0x1fffefbff89ebf6c7e),(286,1,0x1fffefbff89ebf6c7e),(287,1,0x1fffefbff89ebf6c7e),(288,1,0x1fffefbff89ebf6c7e),(289,1,0x1fffefbff89ebf6c7e),(290,1,0x1fffefbff89ebf6c7e),(291,1,0x1fffefbff89ebf6c7e)]
  .l) [(24,5,0x1000008000929f6020)] (.n .l [(285,5,0x1fffefbff89ebf6c7e)] .l)))
  [(9,2,0x1000008000929f6020),(10,2,0x1000008000929f6020),(11,2,0x1000008000929f6020),(12,2,0x1000008000929f6020)]
  (.n (.n (.n (.n .l [(112,7,0x1060048000929f6074)] .l)
  [(138,2,0x4004000000020074),(139,2,0x4004000000020074),(140,2,0x4004000000020074),(141,2,0x4004000000020074)]
  .l) [(34,4,0x1000008000929f6020)] (.n .l [(230,4,0x1fffefbff89ebf6c7e)] .l))
  [(27,4,0x1000008000929f6020),(28,4,0x1000008000929f6020)] (.n (.n (.n .l
  [(198,14,0x8000929a0000),(199,14,0x8000929a0000),(200,14,0x8000929a0000)] .l)
  [(237,3,0x1fffefbff89ebf6c7e)] .l) [(252,2,0x1fffefbff89ebf6c7e)] (.n .l
  [(192,8,0x8000929a0000),(193,8,0x8000929a0000),(194,8,0x8000929a0000),(195,8,0x8000929a0000),(196,8,0x8000929a0000),(197,8,0x8000929a0000),(198,8,0x8000929a0000),(199,8,0x8000929a0000),(200,8,0x8000929a0000)]
  .l)))) [(223,1,0x929a0000),(335,1,0x8000929a0000)] (.n (.n (.n (.n (.n .l
  [(106,7,0x1060048000929f6074),(107,7,0x1060048000929f6074),(144,1,0x73f493ff800000020),(251,1,0x73f493ff800000020),(252,1,0x73f493ff800000020),(253,1,0x73f493ff800000020),(254,1,0x73f493ff800000020),(255,1,0x73f493ff800000020),(256,1,0x73f493ff800000020),(257,1,0x73f493ff800000020),(258,1,0x73f493ff800000020),(264,1,0x73f493ff800000020),(265,1,0x73f493ff800000020),(267,1,0x73f493ff800000020),(268,1,0x73f493ff800000020),(275,1,0x73f493ff800000020),(276,1,0x73f493ff800000020),(278,1,0x73f493ff800000020),(279,1,0x73f493ff800000020),(280,1,0x73f493ff800000020),(285,1,0x73f493ff800000020),(286,1,0x73f493ff800000020),(287,1,0x73f493ff800000020),(288,1,0x73f493ff800000020),(289,1,0x73f493ff800000020),(290,1,0x73f493ff800000020),(291,1,0x73f493ff800000020)]
  .l)
  [(201,5,0x8000929a0000),(202,5,0x8000929a0000),(203,5,0x8000929a0000),(204,5,0x8000929a0000),(205,5,0x8000929a0000),(206,5,0x8000929a0000),(207,5,0x8000929a0000),(208,5,0x8000929a0000),(209,5,0x8000929a0000),(210,5,0x8000929a0000),(211,5,0x8000929a0000)]
  .l) [(270,1,0x1fffefbff89ebf6c7e)] (.n .l
  [(114,4,0x1060048000929f6074),(115,4,0x1060048000929f6074),(116,4,0x1060048000929f6074),(117,4,0x1060048000929f6074)]
  .l)) [(60,3,0x1000008000929f6020),(299,1,0x4004000000000000)] (.n (.n (.n .l
  [(220,12,0x8000929a0000),(221,12,0x8000929a0000),(222,12,0x8000929a0000)] .l)
  [(130,3,0x1fffefbff89ebf6c7e),(316,1,0x103a100000c200c1e),(317,1,0x103a100000c200c1e),(318,1,0x103a100000c200c1e),(319,1,0x103a100000c200c1e)]
  .l)
  [(287,2,0x1fffefbff89ebf6c7e),(288,2,0x1fffefbff89ebf6c7e),(290,2,0x1fffefbff89ebf6c7e),(291,2,0x1fffefbff89ebf6c7e)]
  (.n .l [(226,5,0x1fffefbff89ebf6c7e)] .l)))
  [(146,2,0x8000929a0000),(147,2,0x8000929a0000),(148,2,0x8000929a0000),(149,2,0x8000929a0000),(150,2,0x8000929a0000),(151,2,0x8000929a0000),(152,2,0x8000929a0000),(153,2,0x8000929a0000),(154,2,0x8000929a0000),(155,2,0x8000929a0000),(156,2,0x8000929a0000),(157,2,0x8000929a0000),(158,2,0x8000929a0000),(159,2,0x8000929a0000),(160,2,0x8000929a0000),(161,2,0x8000929a0000),(162,2,0x8000929a0000),(163,2,0x8000929a0000),(164,2,0x8000929a0000),(165,2,0x8000929a0000),(166,2,0x8000929a0000),(167,2,0x8000929a0000),(168,2,0x8000929a0000),(169,2,0x8000929a0000),(170,2,0x8000929a0000),(171,2,0x8000929a0000),(172,2,0x8000929a0000),(173,2,0x8000929a0000),(174,2,0x8000929a0000),(175,2,0x8000929a0000),(176,2,0x8000929a0000),(177,2,0x8000929a0000),(178,2,0x8000929a0000),(179,2,0x8000929a0000),(180,2,0x8000929a0000),(181,2,0x8000929a0000),(182,2,0x8000929a0000),(183,2,0x8000929a0000),(184,2,0x8000929a0000),(185,2,0x8000929a0000),(186,2,0x8000929a0000),(187,2,0x8000929a0000),(188,2,0x8000929a0000),(189,2,0x8000929a0000),(190,2,0x8000929a0000),(191,2,0x8000929a0000),(192,2,0x8000929a0000),(193,2,0x8000929a0000),(194,2,0x8000929a0000),(195,2,0x8000929a0000),(196,2,0x8000929a0000),(197,2,0x8000929a0000),(198,2,0x8000929a0000),(199,2,0x8000929a0000),(200,2,0x8000929a0000),(201,2,0x8000929a0000),(202,2,0x8000929a0000),(203,2,0x8000929a0000),(204,2,0x8000929a0000),(205,2,0x8000929a0000),(206,2,0x8000929a0000),(207,2,0x8000929a0000),(208,2,0x8000929a0000),(209,2,0x8000929a0000),(210,2,0x8000929a0000),(211,2,0x8000929a0000),(212,2,0x8000929a0000),(213,2,0x8000929a0000),(214,2,0x8000929a0000),(215,2,0x8000929a0000),(216,2,0x8000929a0000),(217,2,0x8000929a0000),(218,2,0x8000929a0000),(219,2,0x8000929a0000),(220,2,0x8000929a0000),(221,2,0x8000929a0000),(222,2,0x8000929a0000)]
  (.n (.n (.n (.n .l [(78,7,0x4000000000020074),(303,1,0x4000000000020074)] .l)
  [(144,1,0x1fffefbff89ebf6c7e),(144,3,0x1fffefbff89ebf6c7e),(251,1,0x1fffefbff89ebf6c7e),(252,1,0x1fffefbff89ebf6c7e),(253,1,0x1fffefbff89ebf6c7e),(254,1,0x1fffefbff89ebf6c7e),(255,1,0x1fffefbff89ebf6c7e),(256,1,0x1fffefbff89ebf6c7e),(257,1,0x1fffefbff89ebf6c7e),(258,1,0x1fffefbff89ebf6c7e),(264,1,0x1fffefbff89ebf6c7e),(265,1,0x1fffefbff89ebf6c7e),(267,1,0x1fffefbff89ebf6c7e),(268,1,0x1fffefbff89ebf6c7e),(275,1,0x1fffefbff89ebf6c7e),(276,1,0x1fffefbff89ebf6c7e),(278,1,0x1fffefbff89ebf6c7e),(279,1,0x1fffefbff89ebf6c7e),(280,1,0x1fffefbff89ebf6c7e),(285,1,0x1fffefbff89ebf6c7e),(286,1,0x1fffefbff89ebf6c7e),(287,1,0x1fffefbff89ebf6c7e),(288,1,0x1fffefbff89ebf6c7e),(289,1,0x1fffefbff89ebf6c7e),(290,1,0x1fffefbff89ebf6c7e),(291,1,0x1fffefbff89ebf6c7e)]
  .l)
  [(322,1,0x4000000000020054),(323,1,0x4000000000020054),(324,1,0x4000000000020054),(325,1,0x4000000000020054)]
  (.n .l
  [(169,7,0x8000929a0000),(170,7,0x8000929a0000),(171,7,0x8000929a0000),(172,7,0x8000929a0000),(173,7,0x8000929a0000),(174,7,0x8000929a0000),(175,7,0x8000929a0000),(176,7,0x8000929a0000),(177,7,0x8000929a0000),(178,7,0x8000929a0000)]
  .l))
  [(37,1,0x1fffefbff89ebf6c7e),(39,1,0x1fffefbff89ebf6c7e),(41,1,0x1fffefbff89ebf6c7e),(43,1,0x1fffefbff89ebf6c7e),(45,1,0x1fffefbff89ebf6c7e),(47,1,0x1fffefbff89ebf6c7e),(52,1,0x1fffefbff89ebf6c7e)]
  (.n (.n .l
  [(146,6,0x8000929a0000),(147,6,0x8000929a0000),(148,6,0x8000929a0000),(149,6,0x8000929a0000),(150,6,0x8000929a0000),(151,6,0x8000929a0000),(152,6,0x8000929a0000),(153,6,0x8000929a0000),(154,6,0x8000929a0000),(155,6,0x8000929a0000),(156,6,0x8000929a0000)]
  .l) [(37,2,0x1fffefbff89ebf6c7e)] (.n .l
  [(285,2,0x73fe93ff80c200c3e),(286,2,0x73fe93ff80c200c3e)] .l)))))
  [(9,1,0x1000008000929f6020),(10,1,0x1000008000929f6020),(11,1,0x1000008000929f6020),(12,1,0x1000008000929f6020),(17,1,0x1000008000929f6020),(18,1,0x1000008000929f6020),(19,1,0x1000008000929f6020),(23,1,0x1000008000929f6020),(24,1,0x1000008000929f6020),(27,1,0x1000008000929f6020),(28,1,0x1000008000929f6020),(31,1,0x1000008000929f6020),(33,1,0x1000008000929f6020),(35,1,0x1000008000929f6020)]
  (.n (.n (.n (.n (.n (.n .l [(81,6,0x4000000000020074),(303,1,0x4000000000020074)] .l)
  [(84,2,0x1000008000929f6020),(305,1,0x1800008000929f6020)] .l) [(249,1,0x1fffefbff89ebf6c7e)]
  (.n .l
  [(144,1,0x73f493ff800000000),(251,1,0x73f493ff800000000),(252,1,0x73f493ff800000000),(253,1,0x73f493ff800000000),(254,1,0x73f493ff800000000),(255,1,0x73f493ff800000000),(256,1,0x73f493ff800000000),(257,1,0x73f493ff800000000),(258,1,0x73f493ff800000000),(264,1,0x73f493ff800000000),(265,1,0x73f493ff800000000),(267,1,0x73f493ff800000000),(268,1,0x73f493ff800000000),(275,1,0x73f493ff800000000),(276,1,0x73f493ff800000000),(278,1,0x73f493ff800000000),(279,1,0x73f493ff800000000),(280,1,0x73f493ff800000000),(285,1,0x73f493ff800000000),(285,4,0x1fffefbff89ebf6c7e),(286,1,0x73f493ff800000000),(287,1,0x73f493ff800000000),(288,1,0x73f493ff800000000),(289,1,0x73f493ff800000000),(290,1,0x73f493ff800000000),(291,1,0x73f493ff800000000)]
  .l)) [(25,3,0x1000008000929f6020),(26,3,0x1000008000929f6020)] (.n (.n (.n .l
  [(106,9,0x1060048000929f6074)] .l) [(58,3,0x1fffefbff89ebf6c7e),(59,3,0x1fffefbff89ebf6c7e)] .l)
  [(90,3,0x18a1148008929f6020),(309,1,0x88000000000000000)] (.n .l
  [(118,5,0x1060048000929f6074),(119,5,0x1060048000929f6074),(120,5,0x1060048000929f6074),(121,5,0x1060048000929f6074),(144,1,0x73fe93ff80c200c3e),(251,1,0x73fe93ff80c200c3e),(252,1,0x73fe93ff80c200c3e),(253,1,0x73fe93ff80c200c3e),(254,1,0x73fe93ff80c200c3e),(255,1,0x73fe93ff80c200c3e),(256,1,0x73fe93ff80c200c3e),(257,1,0x73fe93ff80c200c3e),(258,1,0x73fe93ff80c200c3e),(264,1,0x73fe93ff80c200c3e),(265,1,0x73fe93ff80c200c3e),(267,1,0x73fe93ff80c200c3e),(268,1,0x73fe93ff80c200c3e),(275,1,0x73fe93ff80c200c3e),(276,1,0x73fe93ff80c200c3e),(278,1,0x73fe93ff80c200c3e),(279,1,0x73fe93ff80c200c3e),(280,1,0x73fe93ff80c200c3e),(285,1,0x73fe93ff80c200c3e),(286,1,0x73fe93ff80c200c3e),(287,1,0x73fe93ff80c200c3e),(288,1,0x73fe93ff80c200c3e),(289,1,0x73fe93ff80c200c3e),(290,1,0x73fe93ff80c200c3e),(291,1,0x73fe93ff80c200c3e)]
  .l))) [(20,2,0x1000008000929f6020),(21,2,0x1000008000929f6020),(22,2,0x1000008000929f6020)] (.n
  (.n (.n (.n .l
  [(172,10,0x8000929a0000),(173,10,0x8000929a0000),(174,10,0x8000929a0000),(175,10,0x8000929a0000),(176,10,0x8000929a0000),(177,10,0x8000929a0000),(178,10,0x8000929a0000)]
  .l) [(27,6,0x1000008000929f6020)] .l) [(299,2,0x4004000000000000)] (.n .l
  [(125,3,0x1000008000929f6020)] .l)) [(21,4,0x1000008000929f6020)] (.n (.n (.n .l
  [(167,16,0x8000929a0000)] .l) [(305,2,0x1800008000929f6020)] .l)
  [(132,2,0x1fffefbff89ebf6c7e),(316,1,0x103a100000c200c1e),(317,1,0x103a100000c200c1e),(318,1,0x103a100000c200c1e),(319,1,0x103a100000c200c1e)]
  (.n .l
  [(144,1,0x6bf4d3ff800000000),(251,1,0x6bf4d3ff800000000),(252,1,0x6bf4d3ff800000000),(253,1,0x6bf4d3ff800000000),(254,1,0x6bf4d3ff800000000),(255,1,0x6bf4d3ff800000000),(256,1,0x6bf4d3ff800000000),(257,1,0x6bf4d3ff800000000),(258,1,0x6bf4d3ff800000000),(264,1,0x6bf4d3ff800000000),(265,1,0x6bf4d3ff800000000),(267,1,0x6bf4d3ff800000000),(268,1,0x6bf4d3ff800000000),(275,1,0x6bf4d3ff800000000),(276,1,0x6bf4d3ff800000000),(278,1,0x6bf4d3ff800000000),(279,1,0x6bf4d3ff800000000),(280,1,0x6bf4d3ff800000000),(285,1,0x6bf4d3ff800000000),(286,1,0x6bf4d3ff800000000),(287,1,0x6bf4d3ff800000000),(288,1,0x6bf4d3ff800000000),(289,1,0x6bf4d3ff800000000),(290,1,0x6bf4d3ff800000000),(291,1,0x6bf4d3ff800000000),(340,2,0x8004000000000000)]
  .l)))) [(3,2,0x1000008000929f6020)] (.n (.n (.n (.n (.n .l [(101,7,0x1060048000929f6074)] .l)
  [(332,2,0x4000000000020054),(333,2,0x4000000000020054)] .l) [(284,1,0x1fffefbff89ebf6c7e)] (.n
  .l [(303,1,0x103a100000c200c3e),(312,3,0x103a100000c200c1e)] .l))
  [(134,1,0x1fffefbff99ebf6c7e),(135,1,0x1fffefbff99ebf6c7e),(136,1,0x1fffefbff99ebf6c7e),(137,1,0x1fffefbff99ebf6c7e)]
  (.n (.n (.n .l [(209,13,0x8000929a0000),(210,13,0x8000929a0000),(211,13,0x8000929a0000)] .l)
  [(144,1,0x6bf4d3ff800000020),(224,3,0x1fffefbff89ebf6c7e),(225,3,0x1fffefbff89ebf6c7e),(226,3,0x1fffefbff89ebf6c7e),(227,3,0x1fffefbff89ebf6c7e),(251,1,0x6bf4d3ff800000020),(252,1,0x6bf4d3ff800000020),(253,1,0x6bf4d3ff800000020),(254,1,0x6bf4d3ff800000020),(255,1,0x6bf4d3ff800000020),(256,1,0x6bf4d3ff800000020),(257,1,0x6bf4d3ff800000020),(258,1,0x6bf4d3ff800000020),(264,1,0x6bf4d3ff800000020),(265,1,0x6bf4d3ff800000020),(267,1,0x6bf4d3ff800000020),(268,1,0x6bf4d3ff800000020),(275,1,0x6bf4d3ff800000020),(276,1,0x6bf4d3ff800000020),(278,1,0x6bf4d3ff800000020),(279,1,0x6bf4d3ff800000020),(280,1,0x6bf4d3ff800000020),(285,1,0x6bf4d3ff800000020),(286,1,0x6bf4d3ff800000020),(287,1,0x6bf4d3ff800000020),(288,1,0x6bf4d3ff800000020),(289,1,0x6bf4d3ff800000020),(290,1,0x6bf4d3ff800000020),(291,1,0x6bf4d3ff800000020)]
  .l) [(251,2,0x1fffefbff89ebf6c7e)] (.n .l [(65,7,0x1000008000929f6020)] .l)))
  [(4,3,0x1000008000929f6020),(5,3,0x1000008000929f6020)] (.n (.n (.n (.n .l
  [(104,8,0x1060048000929f6074)] .l)
  [(144,1,0x1fffefbff89ebf6c7e),(251,1,0x1fffefbff89ebf6c7e),(252,1,0x1fffefbff89ebf6c7e),(253,1,0x1fffefbff89ebf6c7e),(254,1,0x1fffefbff89ebf6c7e),(255,1,0x1fffefbff89ebf6c7e),(256,1,0x1fffefbff89ebf6c7e),(257,1,0x1fffefbff89ebf6c7e),(258,1,0x1fffefbff89ebf6c7e),(264,1,0x1fffefbff89ebf6c7e),(265,1,0x1fffefbff89ebf6c7e),(267,1,0x1fffefbff89ebf6c7e),(268,1,0x1fffefbff89ebf6c7e),(275,1,0x1fffefbff89ebf6c7e),(276,1,0x1fffefbff89ebf6c7e),(278,1,0x1fffefbff89ebf6c7e),(278,3,0x1fffefbff89ebf6c7e),(279,1,0x1fffefbff89ebf6c7e),(280,1,0x1fffefbff89ebf6c7e),(285,1,0x1fffefbff89ebf6c7e),(286,1,0x1fffefbff89ebf6c7e),(287,1,0x1fffefbff89ebf6c7e),(288,1,0x1fffefbff89ebf6c7e),(289,1,0x1fffefbff89ebf6c7e),(290,1,0x1fffefbff89ebf6c7e),(291,1,0x1fffefbff89ebf6c7e)]
  .l) [(129,1,0x2000000000000)] (.n .l [(321,3,0x4004000000020074)] .l))
  [(50,1,0x1fffefbff89ebf6c7e)] (.n (.n .l [(303,1,0x4000000000020074),(332,3,0x4000000000020054)]
  .l) [(25,5,0x1000008000929f6020)] (.n .l [(123,4,0x2000000000000)] .l))))))
  [(2,1,0x1000008000929f6020)] (.n (.n (.n (.n (.n (.n (.n .l
  [(217,9,0x8000929a0000),(218,9,0x8000929a0000),(219,9,0x8000929a0000),(220,9,0x8000929a0000),(221,9,0x8000929a0000),(222,9,0x8000929a0000)]
  .l) [(32,5,0x1000008000929f6020)] .l) [(245,1,0x1fffefbff89ebf6c7e)] (.n .l
  [(27,7,0x1000008000929f6020)] .l)) [(89,1,0x18a1148008929f6020)] (.n (.n (.n .l
  [(185,11,0x8000929a0000),(186,11,0x8000929a0000),(187,11,0x8000929a0000),(188,11,0x8000929a0000),(189,11,0x8000929a0000)]
  .l)
  [(144,1,0x63f4b3ff800000000),(251,1,0x63f4b3ff800000000),(252,1,0x63f4b3ff800000000),(253,1,0x63f4b3ff800000000),(254,1,0x63f4b3ff800000000),(255,1,0x63f4b3ff800000000),(256,1,0x63f4b3ff800000000),(257,1,0x63f4b3ff800000000),(258,1,0x63f4b3ff800000000),(264,1,0x63f4b3ff800000000),(265,1,0x63f4b3ff800000000),(267,1,0x63f4b3ff800000000),(268,1,0x63f4b3ff800000000),(268,3,0x1fffefbff89ebf6c7e),(275,1,0x63f4b3ff800000000),(276,1,0x63f4b3ff800000000),(278,1,0x63f4b3ff800000000),(279,1,0x63f4b3ff800000000),(280,1,0x63f4b3ff800000000),(285,1,0x63f4b3ff800000000),(286,1,0x63f4b3ff800000000),(287,1,0x63f4b3ff800000000),(288,1,0x63f4b3ff800000000),(289,1,0x63f4b3ff800000000),(290,1,0x63f4b3ff800000000),(291,1,0x63f4b3ff800000000)]
  .l) [(13,5,0x1000008000929f6020)] (.n .l
  [(102,5,0x1060048000929f6074),(103,5,0x1060048000929f6074),(104,5,0x1060048000929f6074),(105,5,0x1060048000929f6074)]
  .l))) [(27,2,0x1000008000929f6020),(28,2,0x1000008000929f6020)] (.n (.n (.n (.n .l
  [(123,5,0x2000000000000)] .l) [(18,6,0x1000008000929f6020)] .l) [(66,3,0x1000008000929f6020)]
  (.n .l [(338,3,0x8004000000000020)] .l))
  [(86,2,0x18a0148008929f6020),(307,1,0x18a1148008929f6020)] (.n (.n (.n .l
  [(189,15,0x8000929a0000)] .l) [(29,6,0x1000008000929f6020)] .l) [(133,2,0x1fffefbff89ebf6c7e)]
  (.n .l [(78,5,0x4000000000020074),(79,5,0x4000000000020074),(80,5,0x4000000000020074)] .l))))
  [(295,2,0x1000008000929f6020),(296,2,0x1000008000929f6020)] (.n (.n (.n (.n (.n .l
  [(102,7,0x1060048000929f6074),(103,7,0x1060048000929f6074),(144,1,0x73f493ff800000020),(251,1,0x73f493ff800000020),(252,1,0x73f493ff800000020),(253,1,0x73f493ff800000020),(254,1,0x73f493ff800000020),(255,1,0x73f493ff800000020),(256,1,0x73f493ff800000020),(257,1,0x73f493ff800000020),(258,1,0x73f493ff800000020),(264,1,0x73f493ff800000020),(265,1,0x73f493ff800000020),(267,1,0x73f493ff800000020),(268,1,0x73f493ff800000020),(275,1,0x73f493ff800000020),(276,1,0x73f493ff800000020),(278,1,0x73f493ff800000020),(279,1,0x73f493ff800000020),(280,1,0x73f493ff800000020),(285,1,0x73f493ff800000020),(286,1,0x73f493ff800000020),(287,1,0x73f493ff800000020),(288,1,0x73f493ff800000020),(289,1,0x73f493ff800000020),(290,1,0x73f493ff800000020),(291,1,0x73f493ff800000020)]
  .l) [(61,5,0x1000008000929f6020)] .l) [(274,1,0x1fffefbff89ebf6c7e)] (.n .l
  [(122,2,0x2000000000000),(124,2,0x2000000000000)] .l)) [(94,3,0x4004000001000000)] (.n (.n (.n
  .l
  [(164,13,0x8000929a0000),(165,13,0x8000929a0000),(166,13,0x8000929a0000),(167,13,0x8000929a0000)]
  .l) [(311,1,0x103a500000c200c3e),(312,2,0x103a100000c200c1e),(313,2,0x103a100000c200c1e)] .l)
  [(267,2,0x1fffefbff89ebf6c7e)] (.n .l
  [(125,4,0x1000008000929f6020),(144,1,0x6bf493ff800000000),(251,1,0x6bf493ff800000000),(252,1,0x6bf493ff800000000),(253,1,0x6bf493ff800000000),(254,1,0x6bf493ff800000000),(255,1,0x6bf493ff800000000),(256,1,0x6bf493ff800000000),(257,1,0x6bf493ff800000000),(258,1,0x6bf493ff800000000),(264,1,0x6bf493ff800000000),(265,1,0x6bf493ff800000000),(267,1,0x6bf493ff800000000),(268,1,0x6bf493ff800000000),(275,1,0x6bf493ff800000000),(276,1,0x6bf493ff800000000),(278,1,0x6bf493ff800000000),(279,1,0x6bf493ff800000000),(280,1,0x6bf493ff800000000),(285,1,0x6bf493ff800000000),(286,1,0x6bf493ff800000000),(287,1,0x6bf493ff800000000),(288,1,0x6bf493ff800000000),(289,1,0x6bf493ff800000000),(290,1,0x6bf493ff800000000),(291,1,0x6bf493ff800000000)]
  .l))) [(62,2,0x1000008000929f6020)] (.n (.n (.n (.n .l [(107,8,0x1060048000929f6074)] .l)
  [(287,3,0x1fffefbff89ebf6c7e),(288,3,0x1fffefbff89ebf6c7e)] .l)
  [(78,1,0x4000000000020074),(79,1,0x4000000000020074),(80,1,0x4000000000020074),(81,1,0x4000000000020074),(82,1,0x4000000000020074),(83,1,0x4000000000020074),(142,1,0x2000000000000)]
  (.n .l
  [(215,7,0x8000929a0000),(216,7,0x8000929a0000),(217,7,0x8000929a0000),(218,7,0x8000929a0000),(219,7,0x8000929a0000),(220,7,0x8000929a0000),(221,7,0x8000929a0000),(222,7,0x8000929a0000)]
  .l)) [(44,1,0x1fffefbff89ebf6c7e)] (.n (.n .l
  [(190,6,0x8000929a0000),(191,6,0x8000929a0000),(192,6,0x8000929a0000),(193,6,0x8000929a0000),(194,6,0x8000929a0000),(195,6,0x8000929a0000),(196,6,0x8000929a0000),(197,6,0x8000929a0000),(198,6,0x8000929a0000),(199,6,0x8000929a0000),(200,6,0x8000929a0000)]
  .l) [(238,2,0x1fffefbff89ebf6c7e)] (.n .l [(113,6,0x1060048000929f6074)] .l)))))
  [(29,1,0x1000008000929f6020),(30,1,0x1000008000929f6020)] (.n (.n (.n (.n (.n (.n .l
  [(79,6,0x4000000000020074)] .l)
  [(168,5,0x8000929a0000),(169,5,0x8000929a0000),(170,5,0x8000929a0000),(171,5,0x8000929a0000),(172,5,0x8000929a0000),(173,5,0x8000929a0000),(174,5,0x8000929a0000),(175,5,0x8000929a0000),(176,5,0x8000929a0000),(177,5,0x8000929a0000),(178,5,0x8000929a0000)]
  .l) [(261,1,0x1fffefbff89ebf6c7e)] (.n .l
  [(144,1,0x63f4d3ff800000000),(145,4,0x1fffefbff89ebf6c7e),(251,1,0x63f4d3ff800000000),(252,1,0x63f4d3ff800000000),(253,1,0x63f4d3ff800000000),(254,1,0x63f4d3ff800000000),(255,1,0x63f4d3ff800000000),(256,1,0x63f4d3ff800000000),(257,1,0x63f4d3ff800000000),(258,1,0x63f4d3ff800000000),(264,1,0x63f4d3ff800000000),(265,1,0x63f4d3ff800000000),(267,1,0x63f4d3ff800000000),(268,1,0x63f4d3ff800000000),(275,1,0x63f4d3ff800000000),(276,1,0x63f4d3ff800000000),(278,1,0x63f4d3ff800000000),(279,1,0x63f4d3ff800000000),(280,1,0x63f4d3ff800000000),(285,1,0x63f4d3ff800000000),(286,1,0x63f4d3ff800000000),(287,1,0x63f4d3ff800000000),(288,1,0x63f4d3ff800000000),(289,1,0x63f4d3ff800000000),(290,1,0x63f4d3ff800000000),(291,1,0x63f4d3ff800000000)]
  .l)) [(93,1,0x10000000000000)] (.n (.n (.n .l
  [(174,12,0x8000929a0000),(175,12,0x8000929a0000),(176,12,0x8000929a0000),(177,12,0x8000929a0000),(178,12,0x8000929a0000)]
  .l)
  [(110,3,0x1060048000929f6074),(111,3,0x1060048000929f6074),(112,3,0x1060048000929f6074),(113,3,0x1060048000929f6074)]
  .l) [(144,2,0x1fffefbff89ebf6c7e)] (.n .l
  [(303,1,0x103a100000c200c3e),(316,4,0x103a100000c200c1e)] .l))) [(34,2,0x1000008000929f6020)]
  (.n (.n (.n (.n .l
  [(218,10,0x8000929a0000),(219,10,0x8000929a0000),(220,10,0x8000929a0000),(221,10,0x8000929a0000),(222,10,0x8000929a0000)]
  .l) [(90,4,0x18a1148008929f6020)] .l) [(4,5,0x1000008000929f6020)] (.n .l
  [(301,2,0x8004000000000000)] .l)) [(68,1,0x1000008000929f6020)] (.n (.n .l
  [(300,1,0x8004000000000000)] .l) [(45,2,0x1fffefbff89ebf6c7e)] (.n .l
  [(98,6,0x1060048000929f6074),(99,6,0x1060048000929f6074),(100,6,0x1060048000929f6074),(101,6,0x1060048000929f6074),(144,1,0x73fe93ff80c200c3e),(251,1,0x73fe93ff80c200c3e),(252,1,0x73fe93ff80c200c3e),(253,1,0x73fe93ff80c200c3e),(254,1,0x73fe93ff80c200c3e),(255,1,0x73fe93ff80c200c3e),(256,1,0x73fe93ff80c200c3e),(257,1,0x73fe93ff80c200c3e),(258,1,0x73fe93ff80c200c3e),(264,1,0x73fe93ff80c200c3e),(265,1,0x73fe93ff80c200c3e),(267,1,0x73fe93ff80c200c3e),(268,1,0x73fe93ff80c200c3e),(275,1,0x73fe93ff80c200c3e),(276,1,0x73fe93ff80c200c3e),(278,1,0x73fe93ff80c200c3e),(279,1,0x73fe93ff80c200c3e),(280,1,0x73fe93ff80c200c3e),(285,1,0x73fe93ff80c200c3e),(286,1,0x73fe93ff80c200c3e),(287,1,0x73fe93ff80c200c3e),(288,1,0x73fe93ff80c200c3e),(289,1,0x73fe93ff80c200c3e),(290,1,0x73fe93ff80c200c3e),(291,1,0x73fe93ff80c200c3e)]
  .l)))) [(94,1,0x4004000001000000),(95,1,0x4004000001000000)] (.n (.n (.n (.n (.n .l
  [(116,7,0x1060048000929f6074)] .l) [(303,1,0x4000000000020074),(324,2,0x4000000000020054)] .l)
  [(26,4,0x1000008000929f6020)] (.n .l [(226,4,0x1fffefbff89ebf6c7e)] .l))
  [(33,4,0x1000008000929f6020)] (.n (.n (.n .l
  [(153,14,0x8000929a0000),(154,14,0x8000929a0000),(155,14,0x8000929a0000),(156,14,0x8000929a0000)]
  .l) [(235,3,0x1fffefbff89ebf6c7e)] .l) [(257,2,0x1fffefbff89ebf6c7e)] (.n .l
  [(147,8,0x8000929a0000),(148,8,0x8000929a0000),(149,8,0x8000929a0000),(150,8,0x8000929a0000),(151,8,0x8000929a0000),(152,8,0x8000929a0000),(153,8,0x8000929a0000),(154,8,0x8000929a0000),(155,8,0x8000929a0000),(156,8,0x8000929a0000)]
  .l))) [(17,3,0x1000008000929f6020),(18,3,0x1000008000929f6020),(19,3,0x1000008000929f6020)] (.n
  (.n (.n (.n .l [(114,8,0x1060048000929f6074)] .l)
  [(144,1,0x1fffefbff89ebf6c7e),(251,1,0x1fffefbff89ebf6c7e),(252,1,0x1fffefbff89ebf6c7e),(253,1,0x1fffefbff89ebf6c7e),(254,1,0x1fffefbff89ebf6c7e),(255,1,0x1fffefbff89ebf6c7e),(256,1,0x1fffefbff89ebf6c7e),(257,1,0x1fffefbff89ebf6c7e),(258,1,0x1fffefbff89ebf6c7e),(264,1,0x1fffefbff89ebf6c7e),(265,1,0x1fffefbff89ebf6c7e),(267,1,0x1fffefbff89ebf6c7e),(268,1,0x1fffefbff89ebf6c7e),(275,1,0x1fffefbff89ebf6c7e),(276,1,0x1fffefbff89ebf6c7e),(278,1,0x1fffefbff89ebf6c7e),(279,1,0x1fffefbff89ebf6c7e),(280,1,0x1fffefbff89ebf6c7e),(280,3,0x1fffefbff89ebf6c7e),(285,1,0x1fffefbff89ebf6c7e),(286,1,0x1fffefbff89ebf6c7e),(287,1,0x1fffefbff89ebf6c7e),(288,1,0x1fffefbff89ebf6c7e),(289,1,0x1fffefbff89ebf6c7e),(290,1,0x1fffefbff89ebf6c7e),(291,1,0x1fffefbff89ebf6c7e)]
  .l) [(19,5,0x1000008000929f6020)] (.n .l
  [(78,4,0x4000000000020074),(79,4,0x4000000000020074),(80,4,0x4000000000020074)] .l))
  [(55,1,0x1fffefbff89ebf6c7e)] (.n (.n .l [(320,2,0x4004000000020074)] .l)
  [(29,5,0x1000008000929f6020)] (.n .l
  [(126,5,0x1000008000929f6020),(144,1,0x163f49bff8929f6020),(251,1,0x163f49bff8929f6020),(252,1,0x163f49bff8929f6020),(253,1,0x163f49bff8929f6020),(254,1,0x163f49bff8929f6020),(255,1,0x163f49bff8929f6020),(256,1,0x163f49bff8929f6020),(257,1,0x163f49bff8929f6020),(258,1,0x163f49bff8929f6020),(264,1,0x163f49bff8929f6020),(265,1,0x163f49bff8929f6020),(267,1,0x163f49bff8929f6020),(268,1,0x163f49bff8929f6020),(275,1,0x163f49bff8929f6020),(276,1,0x163f49bff8929f6020),(278,1,0x163f49bff8929f6020),(279,1,0x163f49bff8929f6020),(280,1,0x163f49bff8929f6020),(285,1,0x163f49bff8929f6020),(286,1,0x163f49bff8929f6020),(287,1,0x163f49bff8929f6020),(288,1,0x163f49bff8929f6020),(289,1,0x163f49bff8929f6020),(290,1,0x163f49bff8929f6020),(291,1,0x163f49bff8929f6020)]
  .l)))))))) [] (.n (.n (.n (.n (.n (.n (.n (.n (.n .l
  [(65,8,0x1000008000929f6020),(144,1,0x163f49bff8929f6020),(251,1,0x163f49bff8929f6020),(252,1,0x163f49bff8929f6020),(253,1,0x163f49bff8929f6020),(254,1,0x163f49bff8929f6020),(255,1,0x163f49bff8929f6020),(256,1,0x163f49bff8929f6020),(257,1,0x163f49bff8929f6020),(258,1,0x163f49bff8929f6020),(264,1,0x163f49bff8929f6020),(265,1,0x163f49bff8929f6020),(267,1,0x163f49bff8929f6020),(268,1,0x163f49bff8929f6020),(275,1,0x163f49bff8929f6020),(276,1,0x163f49bff8929f6020),(278,1,0x163f49bff8929f6020),(279,1,0x163f49bff8929f6020),(280,1,0x163f49bff8929f6020),(285,1,0x163f49bff8929f6020),(286,1,0x163f49bff8929f6020),(287,1,0x163f49bff8929f6020),(288,1,0x163f49bff8929f6020),(289,1,0x163f49bff8929f6020),(290,1,0x163f49bff8929f6020),(291,1,0x163f49bff8929f6020)]
  .l) [(73,1,0x1000008000929f6020)] .l) [(240,1,0x1fffefbff89ebf6c7e)] (.n .l
  [(138,3,0x4004000000020074),(139,3,0x4004000000020074),(144,1,0x67f4d3ff800020074),(251,1,0x67f4d3ff800020074),(252,1,0x67f4d3ff800020074),(253,1,0x67f4d3ff800020074),(254,1,0x67f4d3ff800020074),(255,1,0x67f4d3ff800020074),(256,1,0x67f4d3ff800020074),(257,1,0x67f4d3ff800020074),(258,1,0x67f4d3ff800020074),(264,1,0x67f4d3ff800020074),(265,1,0x67f4d3ff800020074),(267,1,0x67f4d3ff800020074),(268,1,0x67f4d3ff800020074),(275,1,0x67f4d3ff800020074),(276,1,0x67f4d3ff800020074),(278,1,0x67f4d3ff800020074),(279,1,0x67f4d3ff800020074),(280,1,0x67f4d3ff800020074),(285,1,0x67f4d3ff800020074),(286,1,0x67f4d3ff800020074),(287,1,0x67f4d3ff800020074),(288,1,0x67f4d3ff800020074),(289,1,0x67f4d3ff800020074),(290,1,0x67f4d3ff800020074),(291,1,0x67f4d3ff800020074)]
  .l)) [(31,3,0x1000008000929f6020)] (.n (.n (.n .l [(123,6,0x2000000000000)] .l)
  [(144,1,0x1fffefbff89ebf6c7e),(251,1,0x1fffefbff89ebf6c7e),(252,1,0x1fffefbff89ebf6c7e),(253,1,0x1fffefbff89ebf6c7e),(253,3,0x1fffefbff89ebf6c7e),(254,1,0x1fffefbff89ebf6c7e),(255,1,0x1fffefbff89ebf6c7e),(256,1,0x1fffefbff89ebf6c7e),(257,1,0x1fffefbff89ebf6c7e),(258,1,0x1fffefbff89ebf6c7e),(264,1,0x1fffefbff89ebf6c7e),(265,1,0x1fffefbff89ebf6c7e),(267,1,0x1fffefbff89ebf6c7e),(268,1,0x1fffefbff89ebf6c7e),(275,1,0x1fffefbff89ebf6c7e),(276,1,0x1fffefbff89ebf6c7e),(278,1,0x1fffefbff89ebf6c7e),(279,1,0x1fffefbff89ebf6c7e),(280,1,0x1fffefbff89ebf6c7e),(285,1,0x1fffefbff89ebf6c7e),(286,1,0x1fffefbff89ebf6c7e),(287,1,0x1fffefbff89ebf6c7e),(288,1,0x1fffefbff89ebf6c7e),(289,1,0x1fffefbff89ebf6c7e),(290,1,0x1fffefbff89ebf6c7e),(291,1,0x1fffefbff89ebf6c7e)]
  .l) [(23,5,0x1000008000929f6020)] (.n .l [(340,1,0x8004000000000000)] .l)))
  [(8,2,0x1000008000929f6020)] (.n (.n (.n (.n .l [(110,7,0x1060048000929f6074)] .l)
  [(303,1,0x4000000000020074),(326,2,0x4000000000020054)] .l) [(32,4,0x1000008000929f6020)] (.n .l
  [(229,4,0x1fffefbff89ebf6c7e)] .l)) [(23,4,0x1000008000929f6020),(24,4,0x1000008000929f6020)]
  (.n (.n (.n .l [(210,14,0x8000929a0000),(211,14,0x8000929a0000)] .l)
  [(236,3,0x1fffefbff89ebf6c7e)] .l) [(279,2,0x1fffefbff89ebf6c7e)] (.n .l
  [(204,8,0x8000929a0000),(205,8,0x8000929a0000),(206,8,0x8000929a0000),(207,8,0x8000929a0000),(208,8,0x8000929a0000),(209,8,0x8000929a0000),(210,8,0x8000929a0000),(211,8,0x8000929a0000)]
  .l)))) [(36,1,0x1000008000929f6020)] (.n (.n (.n (.n (.n .l [(145,7,0x1fffefbff89ebf6c7e)] .l)
  [(213,5,0x8000929a0000),(214,5,0x8000929a0000),(215,5,0x8000929a0000),(216,5,0x8000929a0000),(217,5,0x8000929a0000),(218,5,0x8000929a0000),(219,5,0x8000929a0000),(220,5,0x8000929a0000),(221,5,0x8000929a0000),(222,5,0x8000929a0000)]
  .l) [(269,1,0x1fffefbff89ebf6c7e)] (.n .l
  [(98,4,0x1060048000929f6074),(99,4,0x1060048000929f6074),(100,4,0x1060048000929f6074),(101,4,0x1060048000929f6074)]
  .l))
  [(146,3,0x8000929a0000),(147,3,0x8000929a0000),(148,3,0x8000929a0000),(149,3,0x8000929a0000),(150,3,0x8000929a0000),(151,3,0x8000929a0000),(152,3,0x8000929a0000),(153,3,0x8000929a0000),(154,3,0x8000929a0000),(155,3,0x8000929a0000),(156,3,0x8000929a0000),(157,3,0x8000929a0000),(158,3,0x8000929a0000),(159,3,0x8000929a0000),(160,3,0x8000929a0000),(161,3,0x8000929a0000),(162,3,0x8000929a0000),(163,3,0x8000929a0000),(164,3,0x8000929a0000),(165,3,0x8000929a0000),(166,3,0x8000929a0000),(167,3,0x8000929a0000),(168,3,0x8000929a0000),(169,3,0x8000929a0000),(170,3,0x8000929a0000),(171,3,0x8000929a0000),(172,3,0x8000929a0000),(173,3,0x8000929a0000),(174,3,0x8000929a0000),(175,3,0x8000929a0000),(176,3,0x8000929a0000),(177,3,0x8000929a0000),(178,3,0x8000929a0000),(179,3,0x8000929a0000),(180,3,0x8000929a0000),(181,3,0x8000929a0000),(182,3,0x8000929a0000),(183,3,0x8000929a0000),(184,3,0x8000929a0000),(185,3,0x8000929a0000),(186,3,0x8000929a0000),(187,3,0x8000929a0000),(188,3,0x8000929a0000),(189,3,0x8000929a0000),(190,3,0x8000929a0000),(191,3,0x8000929a0000),(192,3,0x8000929a0000),(193,3,0x8000929a0000),(194,3,0x8000929a0000),(195,3,0x8000929a0000),(196,3,0x8000929a0000),(197,3,0x8000929a0000),(198,3,0x8000929a0000),(199,3,0x8000929a0000),(200,3,0x8000929a0000),(201,3,0x8000929a0000),(202,3,0x8000929a0000),(203,3,0x8000929a0000),(204,3,0x8000929a0000),(205,3,0x8000929a0000),(206,3,0x8000929a0000),(207,3,0x8000929a0000),(208,3,0x8000929a0000),(209,3,0x8000929a0000),(210,3,0x8000929a0000),(211,3,0x8000929a0000),(212,3,0x8000929a0000),(213,3,0x8000929a0000),(214,3,0x8000929a0000),(215,3,0x8000929a0000),(216,3,0x8000929a0000),(217,3,0x8000929a0000),(218,3,0x8000929a0000),(219,3,0x8000929a0000),(220,3,0x8000929a0000),(221,3,0x8000929a0000),(222,3,0x8000929a0000)]
  (.n (.n (.n .l
  [(186,12,0x8000929a0000),(187,12,0x8000929a0000),(188,12,0x8000929a0000),(189,12,0x8000929a0000)]
  .l) [(122,1,0x2000000000000),(124,1,0x2000000000000)] .l) [(276,2,0x1fffefbff89ebf6c7e)] (.n .l
  [(225,5,0x1fffefbff89ebf6c7e)] .l))) [(335,2,0x8000929a0000)] (.n (.n (.n (.n .l
  [(80,7,0x4000000000020074),(303,1,0x4000000000020074)] .l) [(20,6,0x1000008000929f6020)] .l)
  [(137,2,0x1fffefbff99ebf6c7e)] (.n .l
  [(66,6,0x1000008000929f6020),(144,1,0x163f49bff8929f6020),(251,1,0x163f49bff8929f6020),(252,1,0x163f49bff8929f6020),(253,1,0x163f49bff8929f6020),(254,1,0x163f49bff8929f6020),(255,1,0x163f49bff8929f6020),(256,1,0x163f49bff8929f6020),(257,1,0x163f49bff8929f6020),(258,1,0x163f49bff8929f6020),(264,1,0x163f49bff8929f6020),(265,1,0x163f49bff8929f6020),(267,1,0x163f49bff8929f6020),(268,1,0x163f49bff8929f6020),(275,1,0x163f49bff8929f6020),(276,1,0x163f49bff8929f6020),(278,1,0x163f49bff8929f6020),(279,1,0x163f49bff8929f6020),(280,1,0x163f49bff8929f6020),(285,1,0x163f49bff8929f6020),(286,1,0x163f49bff8929f6020),(287,1,0x163f49bff8929f6020),(288,1,0x163f49bff8929f6020),(289,1,0x163f49bff8929f6020),(290,1,0x163f49bff8929f6020),(291,1,0x163f49bff8929f6020)]
  .l))
  [(98,1,0x1060048000929f6074),(99,1,0x1060048000929f6074),(100,1,0x1060048000929f6074),(101,1,0x1060048000929f6074),(102,1,0x1060048000929f6074),(103,1,0x1060048000929f6074),(104,1,0x1060048000929f6074),(105,1,0x1060048000929f6074),(106,1,0x1060048000929f6074),(107,1,0x1060048000929f6074),(108,1,0x1060048000929f6074),(109,1,0x1060048000929f6074),(110,1,0x1060048000929f6074),(111,1,0x1060048000929f6074),(112,1,0x1060048000929f6074),(113,1,0x1060048000929f6074),(114,1,0x1060048000929f6074),(115,1,0x1060048000929f6074),(116,1,0x1060048000929f6074),(117,1,0x1060048000929f6074),(118,1,0x1060048000929f6074),(119,1,0x1060048000929f6074),(120,1,0x1060048000929f6074),(121,1,0x1060048000929f6074),(130,1,0x167f4dbff8929f6074),(131,1,0x167f4dbff8929f6074),(132,1,0x167f4dbff8929f6074),(133,1,0x167f4dbff8929f6074)]
  (.n (.n .l
  [(157,6,0x8000929a0000),(158,6,0x8000929a0000),(159,6,0x8000929a0000),(160,6,0x8000929a0000),(161,6,0x8000929a0000),(162,6,0x8000929a0000),(163,6,0x8000929a0000),(164,6,0x8000929a0000),(165,6,0x8000929a0000),(166,6,0x8000929a0000),(167,6,0x8000929a0000)]
  .l) [(39,2,0x1fffefbff89ebf6c7e)] (.n .l [(116,6,0x1060048000929f6074)] .l)))))
  [(8,1,0x1000008000929f6020)] (.n (.n (.n (.n (.n (.n .l
  [(83,6,0x4000000000020074),(303,1,0x4000000000020074)] .l) [(77,1,0x1000008000929f6020)] .l)
  [(248,1,0x1fffefbff89ebf6c7e)] (.n .l
  [(144,1,0x1fffefbff89ebf6c7e),(251,1,0x1fffefbff89ebf6c7e),(252,1,0x1fffefbff89ebf6c7e),(253,1,0x1fffefbff89ebf6c7e),(254,1,0x1fffefbff89ebf6c7e),(255,1,0x1fffefbff89ebf6c7e),(256,1,0x1fffefbff89ebf6c7e),(257,1,0x1fffefbff89ebf6c7e),(258,1,0x1fffefbff89ebf6c7e),(264,1,0x1fffefbff89ebf6c7e),(265,1,0x1fffefbff89ebf6c7e),(267,1,0x1fffefbff89ebf6c7e),(268,1,0x1fffefbff89ebf6c7e),(275,1,0x1fffefbff89ebf6c7e),(276,1,0x1fffefbff89ebf6c7e),(278,1,0x1fffefbff89ebf6c7e),(279,1,0x1fffefbff89ebf6c7e),(280,1,0x1fffefbff89ebf6c7e),(285,1,0x1fffefbff89ebf6c7e),(286,1,0x1fffefbff89ebf6c7e),(287,1,0x1fffefbff89ebf6c7e),(288,1,0x1fffefbff89ebf6c7e),(289,1,0x1fffefbff89ebf6c7e),(290,1,0x1fffefbff89ebf6c7e),(290,4,0x1fffefbff89ebf6c7e),(291,1,0x1fffefbff89ebf6c7e)]
  .l)) [(22,3,0x1000008000929f6020)] (.n (.n (.n .l
  [(195,11,0x8000929a0000),(196,11,0x8000929a0000),(197,11,0x8000929a0000),(198,11,0x8000929a0000),(199,11,0x8000929a0000),(200,11,0x8000929a0000)]
  .l)
  [(144,1,0x1fffefbff89ebf6c7e),(251,1,0x1fffefbff89ebf6c7e),(252,1,0x1fffefbff89ebf6c7e),(252,3,0x1fffefbff89ebf6c7e),(253,1,0x1fffefbff89ebf6c7e),(254,1,0x1fffefbff89ebf6c7e),(255,1,0x1fffefbff89ebf6c7e),(256,1,0x1fffefbff89ebf6c7e),(257,1,0x1fffefbff89ebf6c7e),(258,1,0x1fffefbff89ebf6c7e),(264,1,0x1fffefbff89ebf6c7e),(265,1,0x1fffefbff89ebf6c7e),(267,1,0x1fffefbff89ebf6c7e),(268,1,0x1fffefbff89ebf6c7e),(275,1,0x1fffefbff89ebf6c7e),(276,1,0x1fffefbff89ebf6c7e),(278,1,0x1fffefbff89ebf6c7e),(279,1,0x1fffefbff89ebf6c7e),(280,1,0x1fffefbff89ebf6c7e),(285,1,0x1fffefbff89ebf6c7e),(286,1,0x1fffefbff89ebf6c7e),(287,1,0x1fffefbff89ebf6c7e),(288,1,0x1fffefbff89ebf6c7e),(289,1,0x1fffefbff89ebf6c7e),(290,1,0x1fffefbff89ebf6c7e),(291,1,0x1fffefbff89ebf6c7e)]
  .l) [(91,2,0x18a1148008929f6020)] (.n .l
  [(110,5,0x1060048000929f6074),(111,5,0x1060048000929f6074),(112,5,0x1060048000929f6074),(113,5,0x1060048000929f6074),(144,1,0x73fe93ff80c200c3e),(251,1,0x73fe93ff80c200c3e),(252,1,0x73fe93ff80c200c3e),(253,1,0x73fe93ff80c200c3e),(254,1,0x73fe93ff80c200c3e),(255,1,0x73fe93ff80c200c3e),(256,1,0x73fe93ff80c200c3e),(257,1,0x73fe93ff80c200c3e),(258,1,0x73fe93ff80c200c3e),(264,1,0x73fe93ff80c200c3e),(265,1,0x73fe93ff80c200c3e),(267,1,0x73fe93ff80c200c3e),(268,1,0x73fe93ff80c200c3e),(275,1,0x73fe93ff80c200c3e),(276,1,0x73fe93ff80c200c3e),(278,1,0x73fe93ff80c200c3e),(279,1,0x73fe93ff80c200c3e),(280,1,0x73fe93ff80c200c3e),(285,1,0x73fe93ff80c200c3e),(286,1,0x73fe93ff80c200c3e),(287,1,0x73fe93ff80c200c3e),(288,1,0x73fe93ff80c200c3e),(289,1,0x73fe93ff80c200c3e),(290,1,0x73fe93ff80c200c3e),(291,1,0x73fe93ff80c200c3e)]
  .l)))
  [(13,2,0x1000008000929f6020),(14,2,0x1000008000929f6020),(15,2,0x1000008000929f6020),(16,2,0x1000008000929f6020)]
  (.n (.n (.n (.n .l
  [(64,9,0x1000008000929f6020),(144,1,0x163f49bff8929f6020),(251,1,0x163f49bff8929f6020),(252,1,0x163f49bff8929f6020),(253,1,0x163f49bff8929f6020),(254,1,0x163f49bff8929f6020),(255,1,0x163f49bff8929f6020),(256,1,0x163f49bff8929f6020),(257,1,0x163f49bff8929f6020),(258,1,0x163f49bff8929f6020),(264,1,0x163f49bff8929f6020),(265,1,0x163f49bff8929f6020),(267,1,0x163f49bff8929f6020),(268,1,0x163f49bff8929f6020),(275,1,0x163f49bff8929f6020),(276,1,0x163f49bff8929f6020),(278,1,0x163f49bff8929f6020),(279,1,0x163f49bff8929f6020),(280,1,0x163f49bff8929f6020),(285,1,0x163f49bff8929f6020),(286,1,0x163f49bff8929f6020),(287,1,0x163f49bff8929f6020),(288,1,0x163f49bff8929f6020),(289,1,0x163f49bff8929f6020),(290,1,0x163f49bff8929f6020),(291,1,0x163f49bff8929f6020)]
  .l) [(24,6,0x1000008000929f6020)] .l)
  [(144,1,0x6bf493ff800000020),(190,4,0x8000929a0000),(191,4,0x8000929a0000),(192,4,0x8000929a0000),(193,4,0x8000929a0000),(194,4,0x8000929a0000),(195,4,0x8000929a0000),(196,4,0x8000929a0000),(197,4,0x8000929a0000),(198,4,0x8000929a0000),(199,4,0x8000929a0000),(200,4,0x8000929a0000),(201,4,0x8000929a0000),(202,4,0x8000929a0000),(203,4,0x8000929a0000),(204,4,0x8000929a0000),(205,4,0x8000929a0000),(206,4,0x8000929a0000),(207,4,0x8000929a0000),(208,4,0x8000929a0000),(209,4,0x8000929a0000),(210,4,0x8000929a0000),(211,4,0x8000929a0000),(251,1,0x6bf493ff800000020),(252,1,0x6bf493ff800000020),(253,1,0x6bf493ff800000020),(254,1,0x6bf493ff800000020),(255,1,0x6bf493ff800000020),(256,1,0x6bf493ff800000020),(257,1,0x6bf493ff800000020),(258,1,0x6bf493ff800000020),(264,1,0x6bf493ff800000020),(265,1,0x6bf493ff800000020),(267,1,0x6bf493ff800000020),(268,1,0x6bf493ff800000020),(275,1,0x6bf493ff800000020),(276,1,0x6bf493ff800000020),(278,1,0x6bf493ff800000020),(279,1,0x6bf493ff800000020),(280,1,0x6bf493ff800000020),(285,1,0x6bf493ff800000020),(286,1,0x6bf493ff800000020),(287,1,0x6bf493ff800000020),(288,1,0x6bf493ff800000020),(289,1,0x6bf493ff800000020),(290,1,0x6bf493ff800000020),(291,1,0x6bf493ff800000020)]
  (.n .l
  [(144,1,0x6bf4d3ff800000020),(251,1,0x6bf4d3ff800000020),(252,1,0x6bf4d3ff800000020),(253,1,0x6bf4d3ff800000020),(254,1,0x6bf4d3ff800000020),(255,1,0x6bf4d3ff800000020),(256,1,0x6bf4d3ff800000020),(257,1,0x6bf4d3ff800000020),(258,1,0x6bf4d3ff800000020),(264,1,0x6bf4d3ff800000020),(265,1,0x6bf4d3ff800000020),(267,1,0x6bf4d3ff800000020),(268,1,0x6bf4d3ff800000020),(275,1,0x6bf4d3ff800000020),(276,1,0x6bf4d3ff800000020),(278,1,0x6bf4d3ff800000020),(279,1,0x6bf4d3ff800000020),(280,1,0x6bf4d3ff800000020),(285,1,0x6bf4d3ff800000020),(286,1,0x6bf4d3ff800000020),(287,1,0x6bf4d3ff800000020),(288,1,0x6bf4d3ff800000020),(289,1,0x6bf4d3ff800000020),(290,1,0x6bf4d3ff800000020),(291,1,0x6bf4d3ff800000020),(336,3,0x8004000000000020)]
  .l)) [(90,2,0x18a1148008929f6020)] (.n (.n (.n .l [(178,16,0x8000929a0000)] .l)
  [(126,2,0x1000008000929f6020)] .l)
  [(130,2,0x1fffefbff89ebf6c7e),(131,2,0x1fffefbff89ebf6c7e),(303,1,0x103a100000c200c3e)] (.n .l
  [(288,6,0x1fffefbff89ebf6c7e)] .l)))) [(2,2,0x1000008000929f6020)] (.n (.n (.n (.n (.n .l
  [(100,7,0x1060048000929f6074)] .l)
  [(328,2,0x4000000000020054),(329,2,0x4000000000020054),(330,2,0x4000000000020054),(331,2,0x4000000000020054)]
  .l) [(283,1,0x1fffefbff89ebf6c7e)] (.n .l
  [(303,1,0x103a100000c200c3e),(318,3,0x103a100000c200c1e)] .l))
  [(4,4,0x1000008000929f6020),(5,4,0x1000008000929f6020)] (.n (.n (.n .l
  [(221,13,0x8000929a0000),(222,13,0x8000929a0000)] .l) [(231,3,0x1fffefbff89ebf6c7e)] .l)
  [(264,2,0x1fffefbff89ebf6c7e)] (.n .l [(301,3,0x8004000000000000)] .l)))
  [(6,3,0x1000008000929f6020)] (.n (.n (.n (.n .l [(103,8,0x1060048000929f6074)] .l)
  [(144,1,0x1fffefbff89ebf6c7e),(251,1,0x1fffefbff89ebf6c7e),(252,1,0x1fffefbff89ebf6c7e),(253,1,0x1fffefbff89ebf6c7e),(254,1,0x1fffefbff89ebf6c7e),(255,1,0x1fffefbff89ebf6c7e),(256,1,0x1fffefbff89ebf6c7e),(256,3,0x1fffefbff89ebf6c7e),(257,1,0x1fffefbff89ebf6c7e),(258,1,0x1fffefbff89ebf6c7e),(264,1,0x1fffefbff89ebf6c7e),(265,1,0x1fffefbff89ebf6c7e),(267,1,0x1fffefbff89ebf6c7e),(268,1,0x1fffefbff89ebf6c7e),(275,1,0x1fffefbff89ebf6c7e),(276,1,0x1fffefbff89ebf6c7e),(278,1,0x1fffefbff89ebf6c7e),(279,1,0x1fffefbff89ebf6c7e),(280,1,0x1fffefbff89ebf6c7e),(285,1,0x1fffefbff89ebf6c7e),(286,1,0x1fffefbff89ebf6c7e),(287,1,0x1fffefbff89ebf6c7e),(288,1,0x1fffefbff89ebf6c7e),(289,1,0x1fffefbff89ebf6c7e),(290,1,0x1fffefbff89ebf6c7e),(291,1,0x1fffefbff89ebf6c7e)]
  .l) [(128,1,0x2000000000000)] (.n .l [(303,1,0x4000000000020074),(328,4,0x4000000000020054)]
  .l)) [(49,1,0x1fffefbff89ebf6c7e)] (.n (.n .l
  [(303,1,0x4000000000020074),(330,3,0x4000000000020054)] .l)
  [(144,1,0x1fffefbff89ebf6c7e),(251,1,0x1fffefbff89ebf6c7e),(252,1,0x1fffefbff89ebf6c7e),(253,1,0x1fffefbff89ebf6c7e),(254,1,0x1fffefbff89ebf6c7e),(255,1,0x1fffefbff89ebf6c7e),(256,1,0x1fffefbff89ebf6c7e),(257,1,0x1fffefbff89ebf6c7e),(258,1,0x1fffefbff89ebf6c7e),(264,1,0x1fffefbff89ebf6c7e),(265,1,0x1fffefbff89ebf6c7e),(267,1,0x1fffefbff89ebf6c7e),(268,1,0x1fffefbff89ebf6c7e),(275,1,0x1fffefbff89ebf6c7e),(276,1,0x1fffefbff89ebf6c7e),(277,2,0x1fffefbff89ebf6c7e),(278,1,0x1fffefbff89ebf6c7e),(279,1,0x1fffefbff89ebf6c7e),(280,1,0x1fffefbff89ebf6c7e),(285,1,0x1fffefbff89ebf6c7e),(286,1,0x1fffefbff89ebf6c7e),(287,1,0x1fffefbff89ebf6c7e),(288,1,0x1fffefbff89ebf6c7e),(289,1,0x1fffefbff89ebf6c7e),(290,1,0x1fffefbff89ebf6c7e),(291,1,0x1fffefbff89ebf6c7e)]
  (.n .l [(120,6,0x1060048000929f6074)] .l)))))) [(294,1,0x1000008000929f6020)] (.n (.n (.n (.n
  (.n (.n (.n .l
  [(183,9,0x8000929a0000),(184,9,0x8000929a0000),(185,9,0x8000929a0000),(186,9,0x8000929a0000),(187,9,0x8000929a0000),(188,9,0x8000929a0000),(189,9,0x8000929a0000)]
  .l) [(126,1,0x1000008000929f6020)] .l) [(244,1,0x1fffefbff89ebf6c7e)] (.n .l
  [(23,7,0x1000008000929f6020)] .l)) [(88,1,0x18a1148008929f6020)] (.n (.n (.n .l
  [(150,11,0x8000929a0000),(151,11,0x8000929a0000),(152,11,0x8000929a0000),(153,11,0x8000929a0000),(154,11,0x8000929a0000),(155,11,0x8000929a0000),(156,11,0x8000929a0000)]
  .l)
  [(144,1,0x1fffefbff89ebf6c7e),(251,1,0x1fffefbff89ebf6c7e),(252,1,0x1fffefbff89ebf6c7e),(253,1,0x1fffefbff89ebf6c7e),(254,1,0x1fffefbff89ebf6c7e),(255,1,0x1fffefbff89ebf6c7e),(256,1,0x1fffefbff89ebf6c7e),(257,1,0x1fffefbff89ebf6c7e),(257,3,0x1fffefbff89ebf6c7e),(258,1,0x1fffefbff89ebf6c7e),(264,1,0x1fffefbff89ebf6c7e),(265,1,0x1fffefbff89ebf6c7e),(267,1,0x1fffefbff89ebf6c7e),(268,1,0x1fffefbff89ebf6c7e),(275,1,0x1fffefbff89ebf6c7e),(276,1,0x1fffefbff89ebf6c7e),(278,1,0x1fffefbff89ebf6c7e),(279,1,0x1fffefbff89ebf6c7e),(280,1,0x1fffefbff89ebf6c7e),(285,1,0x1fffefbff89ebf6c7e),(286,1,0x1fffefbff89ebf6c7e),(287,1,0x1fffefbff89ebf6c7e),(288,1,0x1fffefbff89ebf6c7e),(289,1,0x1fffefbff89ebf6c7e),(290,1,0x1fffefbff89ebf6c7e),(291,1,0x1fffefbff89ebf6c7e)]
  .l) [(31,5,0x1000008000929f6020)] (.n .l
  [(106,5,0x1060048000929f6074),(107,5,0x1060048000929f6074),(108,5,0x1060048000929f6074),(109,5,0x1060048000929f6074)]
  .l))) [(23,2,0x1000008000929f6020),(24,2,0x1000008000929f6020)] (.n (.n (.n (.n .l
  [(120,7,0x1060048000929f6074)] .l)
  [(11,6,0x1000008000929f6020),(144,1,0x163f49bff8929f6020),(251,1,0x163f49bff8929f6020),(252,1,0x163f49bff8929f6020),(253,1,0x163f49bff8929f6020),(254,1,0x163f49bff8929f6020),(255,1,0x163f49bff8929f6020),(256,1,0x163f49bff8929f6020),(257,1,0x163f49bff8929f6020),(258,1,0x163f49bff8929f6020),(264,1,0x163f49bff8929f6020),(265,1,0x163f49bff8929f6020),(267,1,0x163f49bff8929f6020),(268,1,0x163f49bff8929f6020),(275,1,0x163f49bff8929f6020),(276,1,0x163f49bff8929f6020),(278,1,0x163f49bff8929f6020),(279,1,0x163f49bff8929f6020),(280,1,0x163f49bff8929f6020),(285,1,0x163f49bff8929f6020),(286,1,0x163f49bff8929f6020),(287,1,0x163f49bff8929f6020),(288,1,0x163f49bff8929f6020),(289,1,0x163f49bff8929f6020),(290,1,0x163f49bff8929f6020),(291,1,0x163f49bff8929f6020)]
  .l) [(64,3,0x1000008000929f6020),(65,3,0x1000008000929f6020)] (.n .l
  [(234,4,0x1fffefbff89ebf6c7e)] .l)) [(15,4,0x1000008000929f6020)] (.n (.n (.n .l
  [(154,15,0x8000929a0000),(155,15,0x8000929a0000),(156,15,0x8000929a0000)] .l)
  [(25,6,0x1000008000929f6020)] .l)
  [(144,1,0x6bf4d3ff800000000),(145,2,0x1fffefbff89ebf6c7e),(251,1,0x6bf4d3ff800000000),(252,1,0x6bf4d3ff800000000),(253,1,0x6bf4d3ff800000000),(254,1,0x6bf4d3ff800000000),(255,1,0x6bf4d3ff800000000),(256,1,0x6bf4d3ff800000000),(257,1,0x6bf4d3ff800000000),(258,1,0x6bf4d3ff800000000),(264,1,0x6bf4d3ff800000000),(265,1,0x6bf4d3ff800000000),(267,1,0x6bf4d3ff800000000),(268,1,0x6bf4d3ff800000000),(275,1,0x6bf4d3ff800000000),(276,1,0x6bf4d3ff800000000),(278,1,0x6bf4d3ff800000000),(279,1,0x6bf4d3ff800000000),(280,1,0x6bf4d3ff800000000),(285,1,0x6bf4d3ff800000000),(286,1,0x6bf4d3ff800000000),(287,1,0x6bf4d3ff800000000),(288,1,0x6bf4d3ff800000000),(289,1,0x6bf4d3ff800000000),(290,1,0x6bf4d3ff800000000),(291,1,0x6bf4d3ff800000000)]
  (.n .l [(82,5,0x4000000000020074)] .l)))) [] (.n (.n (.n (.n (.n .l
  [(105,7,0x1060048000929f6074)] .l) [(60,5,0x1000008000929f6020)] .l)
  [(273,1,0x1fffefbff89ebf6c7e)] (.n .l [(123,2,0x2000000000000)] .l))
  [(62,3,0x1000008000929f6020)] (.n (.n (.n .l
  [(175,13,0x8000929a0000),(176,13,0x8000929a0000),(177,13,0x8000929a0000),(178,13,0x8000929a0000)]
  .l) [(132,3,0x1fffefbff89ebf6c7e)] .l) [(289,2,0x1fffefbff89ebf6c7e)] (.n .l
  [(144,1,0x6bf4d3ff800000020),(251,1,0x6bf4d3ff800000020),(252,1,0x6bf4d3ff800000020),(253,1,0x6bf4d3ff800000020),(254,1,0x6bf4d3ff800000020),(255,1,0x6bf4d3ff800000020),(256,1,0x6bf4d3ff800000020),(257,1,0x6bf4d3ff800000020),(258,1,0x6bf4d3ff800000020),(264,1,0x6bf4d3ff800000020),(265,1,0x6bf4d3ff800000020),(267,1,0x6bf4d3ff800000020),(268,1,0x6bf4d3ff800000020),(275,1,0x6bf4d3ff800000020),(276,1,0x6bf4d3ff800000020),(278,1,0x6bf4d3ff800000020),(279,1,0x6bf4d3ff800000020),(280,1,0x6bf4d3ff800000020),(285,1,0x6bf4d3ff800000020),(286,1,0x6bf4d3ff800000020),(287,1,0x6bf4d3ff800000020),(288,1,0x6bf4d3ff800000020),(289,1,0x6bf4d3ff800000020),(290,1,0x6bf4d3ff800000020),(291,1,0x6bf4d3ff800000020),(338,4,0x8004000000000020)]
  .l))) [(60,2,0x1000008000929f6020),(61,2,0x1000008000929f6020)] (.n (.n (.n (.n .l
  [(106,8,0x1060048000929f6074)] .l)
  [(144,1,0x1fffefbff89ebf6c7e),(251,1,0x1fffefbff89ebf6c7e),(252,1,0x1fffefbff89ebf6c7e),(253,1,0x1fffefbff89ebf6c7e),(254,1,0x1fffefbff89ebf6c7e),(255,1,0x1fffefbff89ebf6c7e),(256,1,0x1fffefbff89ebf6c7e),(257,1,0x1fffefbff89ebf6c7e),(258,1,0x1fffefbff89ebf6c7e),(264,1,0x1fffefbff89ebf6c7e),(265,1,0x1fffefbff89ebf6c7e),(267,1,0x1fffefbff89ebf6c7e),(268,1,0x1fffefbff89ebf6c7e),(275,1,0x1fffefbff89ebf6c7e),(276,1,0x1fffefbff89ebf6c7e),(276,3,0x1fffefbff89ebf6c7e),(278,1,0x1fffefbff89ebf6c7e),(279,1,0x1fffefbff89ebf6c7e),(280,1,0x1fffefbff89ebf6c7e),(285,1,0x1fffefbff89ebf6c7e),(286,1,0x1fffefbff89ebf6c7e),(287,1,0x1fffefbff89ebf6c7e),(288,1,0x1fffefbff89ebf6c7e),(289,1,0x1fffefbff89ebf6c7e),(290,1,0x1fffefbff89ebf6c7e),(291,1,0x1fffefbff89ebf6c7e)]
  .l)
  [(138,1,0x4004000000020074),(139,1,0x4004000000020074),(140,1,0x4004000000020074),(141,1,0x4004000000020074)]
  (.n .l
  [(181,7,0x8000929a0000),(182,7,0x8000929a0000),(183,7,0x8000929a0000),(184,7,0x8000929a0000),(185,7,0x8000929a0000),(186,7,0x8000929a0000),(187,7,0x8000929a0000),(188,7,0x8000929a0000),(189,7,0x8000929a0000)]
  .l)) [(42,1,0x1fffefbff89ebf6c7e)] (.n (.n .l
  [(202,6,0x8000929a0000),(203,6,0x8000929a0000),(204,6,0x8000929a0000),(205,6,0x8000929a0000),(206,6,0x8000929a0000),(207,6,0x8000929a0000),(208,6,0x8000929a0000),(209,6,0x8000929a0000),(210,6,0x8000929a0000),(211,6,0x8000929a0000)]
  .l)
  [(236,2,0x1fffefbff89ebf6c7e),(237,2,0x1fffefbff89ebf6c7e),(338,1,0x8004000000000020),(339,1,0x8004000000000020)]
  (.n .l [(112,6,0x1060048000929f6074)] .l)))))
  [(25,1,0x1000008000929f6020),(26,1,0x1000008000929f6020)] (.n (.n (.n (.n (.n (.n .l
  [(78,6,0x4000000000020074)] .l) [(66,4,0x1000008000929f6020)] .l) [(260,1,0x1fffefbff89ebf6c7e)]
  (.n .l [(58,4,0x1fffefbff89ebf6c7e)] .l)) [(32,3,0x1000008000929f6020)] (.n (.n (.n .l
  [(123,7,0x2000000000000),(144,1,0x63f4b3ff800000000),(251,1,0x63f4b3ff800000000),(252,1,0x63f4b3ff800000000),(253,1,0x63f4b3ff800000000),(254,1,0x63f4b3ff800000000),(255,1,0x63f4b3ff800000000),(256,1,0x63f4b3ff800000000),(257,1,0x63f4b3ff800000000),(258,1,0x63f4b3ff800000000),(264,1,0x63f4b3ff800000000),(265,1,0x63f4b3ff800000000),(267,1,0x63f4b3ff800000000),(268,1,0x63f4b3ff800000000),(275,1,0x63f4b3ff800000000),(276,1,0x63f4b3ff800000000),(278,1,0x63f4b3ff800000000),(279,1,0x63f4b3ff800000000),(280,1,0x63f4b3ff800000000),(285,1,0x63f4b3ff800000000),(286,1,0x63f4b3ff800000000),(287,1,0x63f4b3ff800000000),(288,1,0x63f4b3ff800000000),(289,1,0x63f4b3ff800000000),(290,1,0x63f4b3ff800000000),(291,1,0x63f4b3ff800000000)]
  .l)
  [(114,3,0x1060048000929f6074),(115,3,0x1060048000929f6074),(116,3,0x1060048000929f6074),(117,3,0x1060048000929f6074)]
  .l) [(20,5,0x1000008000929f6020)] (.n .l
  [(122,3,0x2000000000000),(144,1,0x63f4b3ff800000000),(251,1,0x63f4b3ff800000000),(252,1,0x63f4b3ff800000000),(253,1,0x63f4b3ff800000000),(254,1,0x63f4b3ff800000000),(255,1,0x63f4b3ff800000000),(256,1,0x63f4b3ff800000000),(257,1,0x63f4b3ff800000000),(258,1,0x63f4b3ff800000000),(264,1,0x63f4b3ff800000000),(265,1,0x63f4b3ff800000000),(267,1,0x63f4b3ff800000000),(268,1,0x63f4b3ff800000000),(275,1,0x63f4b3ff800000000),(276,1,0x63f4b3ff800000000),(278,1,0x63f4b3ff800000000),(279,1,0x63f4b3ff800000000),(280,1,0x63f4b3ff800000000),(285,1,0x63f4b3ff800000000),(286,1,0x63f4b3ff800000000),(287,1,0x63f4b3ff800000000),(288,1,0x63f4b3ff800000000),(289,1,0x63f4b3ff800000000),(290,1,0x63f4b3ff800000000),(291,1,0x63f4b3ff800000000)]
  .l))) [(32,2,0x1000008000929f6020)] (.n (.n (.n (.n .l
  [(184,10,0x8000929a0000),(185,10,0x8000929a0000),(186,10,0x8000929a0000),(187,10,0x8000929a0000),(188,10,0x8000929a0000),(189,10,0x8000929a0000)]
  .l)
  [(13,6,0x1000008000929f6020),(144,1,0x163f49bff8929f6020),(251,1,0x163f49bff8929f6020),(252,1,0x163f49bff8929f6020),(253,1,0x163f49bff8929f6020),(254,1,0x163f49bff8929f6020),(255,1,0x163f49bff8929f6020),(256,1,0x163f49bff8929f6020),(257,1,0x163f49bff8929f6020),(258,1,0x163f49bff8929f6020),(264,1,0x163f49bff8929f6020),(265,1,0x163f49bff8929f6020),(267,1,0x163f49bff8929f6020),(268,1,0x163f49bff8929f6020),(275,1,0x163f49bff8929f6020),(276,1,0x163f49bff8929f6020),(278,1,0x163f49bff8929f6020),(279,1,0x163f49bff8929f6020),(280,1,0x163f49bff8929f6020),(285,1,0x163f49bff8929f6020),(286,1,0x163f49bff8929f6020),(287,1,0x163f49bff8929f6020),(288,1,0x163f49bff8929f6020),(289,1,0x163f49bff8929f6020),(290,1,0x163f49bff8929f6020),(291,1,0x163f49bff8929f6020)]
  .l) [(298,2,0x4004000000000000)] (.n .l [(64,6,0x1000008000929f6020)] .l))
  [(67,1,0x1000008000929f6020),(144,1,0x163f49bff8929f6020),(251,1,0x163f49bff8929f6020),(252,1,0x163f49bff8929f6020),(253,1,0x163f49bff8929f6020),(254,1,0x163f49bff8929f6020),(255,1,0x163f49bff8929f6020),(256,1,0x163f49bff8929f6020),(257,1,0x163f49bff8929f6020),(258,1,0x163f49bff8929f6020),(264,1,0x163f49bff8929f6020),(265,1,0x163f49bff8929f6020),(267,1,0x163f49bff8929f6020),(268,1,0x163f49bff8929f6020),(275,1,0x163f49bff8929f6020),(276,1,0x163f49bff8929f6020),(278,1,0x163f49bff8929f6020),(279,1,0x163f49bff8929f6020),(280,1,0x163f49bff8929f6020),(285,1,0x163f49bff8929f6020),(286,1,0x163f49bff8929f6020),(287,1,0x163f49bff8929f6020),(288,1,0x163f49bff8929f6020),(289,1,0x163f49bff8929f6020),(290,1,0x163f49bff8929f6020),(291,1,0x163f49bff8929f6020)]
  (.n (.n (.n .l [(156,17,0x8000929a0000)] .l) [(65,5,0x1000008000929f6020)] .l)
  [(47,2,0x1fffefbff89ebf6c7e)] (.n .l
  [(102,6,0x1060048000929f6074),(103,6,0x1060048000929f6074),(104,6,0x1060048000929f6074),(105,6,0x1060048000929f6074),(144,1,0x73fe93ff80c200c3e),(251,1,0x73fe93ff80c200c3e),(252,1,0x73fe93ff80c200c3e),(253,1,0x73fe93ff80c200c3e),(254,1,0x73fe93ff80c200c3e),(255,1,0x73fe93ff80c200c3e),(256,1,0x73fe93ff80c200c3e),(257,1,0x73fe93ff80c200c3e),(258,1,0x73fe93ff80c200c3e),(264,1,0x73fe93ff80c200c3e),(265,1,0x73fe93ff80c200c3e),(267,1,0x73fe93ff80c200c3e),(268,1,0x73fe93ff80c200c3e),(275,1,0x73fe93ff80c200c3e),(276,1,0x73fe93ff80c200c3e),(278,1,0x73fe93ff80c200c3e),(279,1,0x73fe93ff80c200c3e),(280,1,0x73fe93ff80c200c3e),(285,1,0x73fe93ff80c200c3e),(286,1,0x73fe93ff80c200c3e),(287,1,0x73fe93ff80c200c3e),(288,1,0x73fe93ff80c200c3e),(289,1,0x73fe93ff80c200c3e),(290,1,0x73fe93ff80c200c3e),(291,1,0x73fe93ff80c200c3e)]
  .l)))) [(63,1,0x1000008000929f6020)] (.n (.n (.n (.n (.n .l
  [(144,1,0x73fe93ff80c200c3e),(251,1,0x73fe93ff80c200c3e),(252,1,0x73fe93ff80c200c3e),(253,1,0x73fe93ff80c200c3e),(254,1,0x73fe93ff80c200c3e),(255,1,0x73fe93ff80c200c3e),(256,1,0x73fe93ff80c200c3e),(257,1,0x73fe93ff80c200c3e),(258,1,0x73fe93ff80c200c3e),(264,1,0x73fe93ff80c200c3e),(265,1,0x73fe93ff80c200c3e),(267,1,0x73fe93ff80c200c3e),(268,1,0x73fe93ff80c200c3e),(275,1,0x73fe93ff80c200c3e),(276,1,0x73fe93ff80c200c3e),(278,1,0x73fe93ff80c200c3e),(279,1,0x73fe93ff80c200c3e),(280,1,0x73fe93ff80c200c3e),(280,3,0x73fe93ff80c200c3e),(285,1,0x73fe93ff80c200c3e),(286,1,0x73fe93ff80c200c3e),(287,1,0x73fe93ff80c200c3e),(288,1,0x73fe93ff80c200c3e),(289,1,0x73fe93ff80c200c3e),(290,1,0x73fe93ff80c200c3e),(291,1,0x73fe93ff80c200c3e)]
  .l) [(135,3,0x1fffefbff99ebf6c7e)] .l) [(25,4,0x1000008000929f6020)] (.n .l
  [(224,4,0x1fffefbff89ebf6c7e),(225,4,0x1fffefbff89ebf6c7e),(338,1,0x8004000000000020),(339,1,0x8004000000000020)]
  .l))
  [(9,4,0x1000008000929f6020),(10,4,0x1000008000929f6020),(11,4,0x1000008000929f6020),(12,4,0x1000008000929f6020)]
  (.n (.n (.n .l [(165,14,0x8000929a0000),(166,14,0x8000929a0000),(167,14,0x8000929a0000)] .l)
  [(232,3,0x1fffefbff89ebf6c7e),(233,3,0x1fffefbff89ebf6c7e),(338,1,0x8004000000000020),(339,1,0x8004000000000020)]
  .l) [(285,2,0x1fffefbff89ebf6c7e),(286,2,0x1fffefbff89ebf6c7e)] (.n .l
  [(159,8,0x8000929a0000),(160,8,0x8000929a0000),(161,8,0x8000929a0000),(162,8,0x8000929a0000),(163,8,0x8000929a0000),(164,8,0x8000929a0000),(165,8,0x8000929a0000),(166,8,0x8000929a0000),(167,8,0x8000929a0000)]
  .l))) [(33,3,0x1000008000929f6020)] (.n (.n (.n (.n .l [(100,8,0x1060048000929f6074)] .l)
  [(144,1,0x1fffefbff89ebf6c7e),(251,1,0x1fffefbff89ebf6c7e),(252,1,0x1fffefbff89ebf6c7e),(253,1,0x1fffefbff89ebf6c7e),(254,1,0x1fffefbff89ebf6c7e),(255,1,0x1fffefbff89ebf6c7e),(256,1,0x1fffefbff89ebf6c7e),(257,1,0x1fffefbff89ebf6c7e),(258,1,0x1fffefbff89ebf6c7e),(258,3,0x1fffefbff89ebf6c7e),(264,1,0x1fffefbff89ebf6c7e),(265,1,0x1fffefbff89ebf6c7e),(267,1,0x1fffefbff89ebf6c7e),(268,1,0x1fffefbff89ebf6c7e),(275,1,0x1fffefbff89ebf6c7e),(276,1,0x1fffefbff89ebf6c7e),(278,1,0x1fffefbff89ebf6c7e),(279,1,0x1fffefbff89ebf6c7e),(280,1,0x1fffefbff89ebf6c7e),(285,1,0x1fffefbff89ebf6c7e),(286,1,0x1fffefbff89ebf6c7e),(287,1,0x1fffefbff89ebf6c7e),(288,1,0x1fffefbff89ebf6c7e),(289,1,0x1fffefbff89ebf6c7e),(290,1,0x1fffefbff89ebf6c7e),(291,1,0x1fffefbff89ebf6c7e)]
  .l) [(33,5,0x1000008000929f6020)] (.n .l
  [(81,4,0x4000000000020074),(82,4,0x4000000000020074),(83,4,0x4000000000020074)] .l))
  [(54,1,0x1fffefbff89ebf6c7e)] (.n (.n .l [(303,1,0x4000000000020074),(322,3,0x4000000000020054)]
  .l) [(71,1,0x1000008000929f6020)] (.n .l [(125,5,0x1000008000929f6020)] .l)))))))
  [(0,1,0x100000000000000000),(295,1,0x1000008000929f6020),(296,1,0x1000008000929f6020),(297,1,0x1000008000929f6020)]
  (.n (.n (.n (.n (.n (.n (.n (.n .l
  [(160,9,0x8000929a0000),(161,9,0x8000929a0000),(162,9,0x8000929a0000),(163,9,0x8000929a0000),(164,9,0x8000929a0000),(165,9,0x8000929a0000),(166,9,0x8000929a0000),(167,9,0x8000929a0000)]
  .l)
  [(98,1,0x1000008000929f6020),(99,1,0x1000008000929f6020),(100,1,0x1000008000929f6020),(101,1,0x1000008000929f6020),(102,1,0x1000008000929f6020),(103,1,0x1000008000929f6020),(104,1,0x1000008000929f6020),(105,1,0x1000008000929f6020),(106,1,0x1000008000929f6020),(107,1,0x1000008000929f6020),(108,1,0x1000008000929f6020),(109,1,0x1000008000929f6020),(110,1,0x1000008000929f6020),(111,1,0x1000008000929f6020),(112,1,0x1000008000929f6020),(113,1,0x1000008000929f6020),(114,1,0x1000008000929f6020),(115,1,0x1000008000929f6020),(116,1,0x1000008000929f6020),(117,1,0x1000008000929f6020),(118,1,0x1000008000929f6020),(119,1,0x1000008000929f6020),(120,1,0x1000008000929f6020),(121,1,0x1000008000929f6020)]
  .l) [(242,1,0x1fffefbff89ebf6c7e)] (.n .l
  [(9,7,0x1000008000929f6020),(144,1,0x163f49bff8929f6020),(251,1,0x163f49bff8929f6020),(252,1,0x163f49bff8929f6020),(253,1,0x163f49bff8929f6020),(254,1,0x163f49bff8929f6020),(255,1,0x163f49bff8929f6020),(256,1,0x163f49bff8929f6020),(257,1,0x163f49bff8929f6020),(258,1,0x163f49bff8929f6020),(264,1,0x163f49bff8929f6020),(265,1,0x163f49bff8929f6020),(267,1,0x163f49bff8929f6020),(268,1,0x163f49bff8929f6020),(275,1,0x163f49bff8929f6020),(276,1,0x163f49bff8929f6020),(278,1,0x163f49bff8929f6020),(279,1,0x163f49bff8929f6020),(280,1,0x163f49bff8929f6020),(285,1,0x163f49bff8929f6020),(286,1,0x163f49bff8929f6020),(287,1,0x163f49bff8929f6020),(288,1,0x163f49bff8929f6020),(289,1,0x163f49bff8929f6020),(290,1,0x163f49bff8929f6020),(291,1,0x163f49bff8929f6020)]
  .l))
  [(13,3,0x1000008000929f6020),(14,3,0x1000008000929f6020),(15,3,0x1000008000929f6020),(16,3,0x1000008000929f6020)]
  (.n (.n (.n .l
  [(173,11,0x8000929a0000),(174,11,0x8000929a0000),(175,11,0x8000929a0000),(176,11,0x8000929a0000),(177,11,0x8000929a0000),(178,11,0x8000929a0000)]
  .l) [(285,3,0x1fffefbff89ebf6c7e)] .l) [(27,5,0x1000008000929f6020)] (.n .l
  [(144,1,0x1fffefbff89ebf6c7e),(251,1,0x1fffefbff89ebf6c7e),(252,1,0x1fffefbff89ebf6c7e),(253,1,0x1fffefbff89ebf6c7e),(254,1,0x1fffefbff89ebf6c7e),(255,1,0x1fffefbff89ebf6c7e),(256,1,0x1fffefbff89ebf6c7e),(257,1,0x1fffefbff89ebf6c7e),(258,1,0x1fffefbff89ebf6c7e),(264,1,0x1fffefbff89ebf6c7e),(265,1,0x1fffefbff89ebf6c7e),(267,1,0x1fffefbff89ebf6c7e),(268,1,0x1fffefbff89ebf6c7e),(268,5,0x1fffefbff89ebf6c7e),(275,1,0x1fffefbff89ebf6c7e),(276,1,0x1fffefbff89ebf6c7e),(278,1,0x1fffefbff89ebf6c7e),(279,1,0x1fffefbff89ebf6c7e),(280,1,0x1fffefbff89ebf6c7e),(285,1,0x1fffefbff89ebf6c7e),(286,1,0x1fffefbff89ebf6c7e),(287,1,0x1fffefbff89ebf6c7e),(288,1,0x1fffefbff89ebf6c7e),(289,1,0x1fffefbff89ebf6c7e),(290,1,0x1fffefbff89ebf6c7e),(291,1,0x1fffefbff89ebf6c7e)]
  .l))) [(33,2,0x1000008000929f6020)] (.n (.n (.n (.n .l [(118,7,0x1060048000929f6074)] .l)
  [(78,2,0x4000000000020074),(79,2,0x4000000000020074),(80,2,0x4000000000020074),(81,2,0x4000000000020074),(82,2,0x4000000000020074),(83,2,0x4000000000020074)]
  .l)
  [(84,1,0x1000008000929f6020),(85,1,0x1000008000929f6020),(144,1,0x1e3f49bff8929f6020),(251,1,0x1e3f49bff8929f6020),(252,1,0x1e3f49bff8929f6020),(253,1,0x1e3f49bff8929f6020),(254,1,0x1e3f49bff8929f6020),(255,1,0x1e3f49bff8929f6020),(256,1,0x1e3f49bff8929f6020),(257,1,0x1e3f49bff8929f6020),(258,1,0x1e3f49bff8929f6020),(264,1,0x1e3f49bff8929f6020),(265,1,0x1e3f49bff8929f6020),(267,1,0x1e3f49bff8929f6020),(268,1,0x1e3f49bff8929f6020),(275,1,0x1e3f49bff8929f6020),(276,1,0x1e3f49bff8929f6020),(278,1,0x1e3f49bff8929f6020),(279,1,0x1e3f49bff8929f6020),(280,1,0x1e3f49bff8929f6020),(285,1,0x1e3f49bff8929f6020),(286,1,0x1e3f49bff8929f6020),(287,1,0x1e3f49bff8929f6020),(288,1,0x1e3f49bff8929f6020),(289,1,0x1e3f49bff8929f6020),(290,1,0x1e3f49bff8929f6020),(291,1,0x1e3f49bff8929f6020)]
  (.n .l [(233,4,0x1fffefbff89ebf6c7e)] .l)) [(31,4,0x1000008000929f6020)] (.n (.n (.n .l
  [(177,15,0x8000929a0000),(178,15,0x8000929a0000)] .l)
  [(144,1,0x6bf4d3ff800000020),(251,1,0x6bf4d3ff800000020),(252,1,0x6bf4d3ff800000020),(253,1,0x6bf4d3ff800000020),(254,1,0x6bf4d3ff800000020),(255,1,0x6bf4d3ff800000020),(256,1,0x6bf4d3ff800000020),(257,1,0x6bf4d3ff800000020),(258,1,0x6bf4d3ff800000020),(264,1,0x6bf4d3ff800000020),(265,1,0x6bf4d3ff800000020),(267,1,0x6bf4d3ff800000020),(268,1,0x6bf4d3ff800000020),(275,1,0x6bf4d3ff800000020),(276,1,0x6bf4d3ff800000020),(278,1,0x6bf4d3ff800000020),(279,1,0x6bf4d3ff800000020),(280,1,0x6bf4d3ff800000020),(285,1,0x6bf4d3ff800000020),(286,1,0x6bf4d3ff800000020),(287,1,0x6bf4d3ff800000020),(288,1,0x6bf4d3ff800000020),(289,1,0x6bf4d3ff800000020),(290,1,0x6bf4d3ff800000020),(291,1,0x6bf4d3ff800000020),(337,2,0x8004000000000020)]
  .l) [(56,2,0x1fffefbff89ebf6c7e)] (.n .l [(83,5,0x4000000000020074)] .l))))
  [(334,1,0x8000929a0000)] (.n (.n (.n (.n (.n .l [(109,7,0x1060048000929f6074)] .l)
  [(190,5,0x8000929a0000),(191,5,0x8000929a0000),(192,5,0x8000929a0000),(193,5,0x8000929a0000),(194,5,0x8000929a0000),(195,5,0x8000929a0000),(196,5,0x8000929a0000),(197,5,0x8000929a0000),(198,5,0x8000929a0000),(199,5,0x8000929a0000),(200,5,0x8000929a0000)]
  .l) [(271,1,0x1fffefbff89ebf6c7e)] (.n .l
  [(110,4,0x1060048000929f6074),(111,4,0x1060048000929f6074),(112,4,0x1060048000929f6074),(113,4,0x1060048000929f6074)]
  .l)) [(61,3,0x1000008000929f6020)] (.n (.n (.n .l
  [(208,12,0x8000929a0000),(209,12,0x8000929a0000),(210,12,0x8000929a0000),(211,12,0x8000929a0000)]
  .l) [(131,3,0x1fffefbff89ebf6c7e)] .l) [(256,2,0x1fffefbff89ebf6c7e)] (.n .l
  [(228,5,0x1fffefbff89ebf6c7e)] .l))) [(295,3,0x1000008000929f6020)] (.n (.n (.n (.n .l
  [(79,7,0x4000000000020074),(303,1,0x4000000000020074)] .l)
  [(144,1,0x1fffefbff89ebf6c7e),(251,1,0x1fffefbff89ebf6c7e),(252,1,0x1fffefbff89ebf6c7e),(253,1,0x1fffefbff89ebf6c7e),(254,1,0x1fffefbff89ebf6c7e),(254,3,0x1fffefbff89ebf6c7e),(255,1,0x1fffefbff89ebf6c7e),(256,1,0x1fffefbff89ebf6c7e),(257,1,0x1fffefbff89ebf6c7e),(258,1,0x1fffefbff89ebf6c7e),(264,1,0x1fffefbff89ebf6c7e),(265,1,0x1fffefbff89ebf6c7e),(267,1,0x1fffefbff89ebf6c7e),(268,1,0x1fffefbff89ebf6c7e),(275,1,0x1fffefbff89ebf6c7e),(276,1,0x1fffefbff89ebf6c7e),(278,1,0x1fffefbff89ebf6c7e),(279,1,0x1fffefbff89ebf6c7e),(280,1,0x1fffefbff89ebf6c7e),(285,1,0x1fffefbff89ebf6c7e),(286,1,0x1fffefbff89ebf6c7e),(287,1,0x1fffefbff89ebf6c7e),(288,1,0x1fffefbff89ebf6c7e),(289,1,0x1fffefbff89ebf6c7e),(290,1,0x1fffefbff89ebf6c7e),(291,1,0x1fffefbff89ebf6c7e)]
  .l) [(326,1,0x4000000000020054),(327,1,0x4000000000020054)] (.n .l
  [(158,7,0x8000929a0000),(159,7,0x8000929a0000),(160,7,0x8000929a0000),(161,7,0x8000929a0000),(162,7,0x8000929a0000),(163,7,0x8000929a0000),(164,7,0x8000929a0000),(165,7,0x8000929a0000),(166,7,0x8000929a0000),(167,7,0x8000929a0000)]
  .l)) [(38,1,0x1fffefbff89ebf6c7e)] (.n (.n .l
  [(180,6,0x8000929a0000),(181,6,0x8000929a0000),(182,6,0x8000929a0000),(183,6,0x8000929a0000),(184,6,0x8000929a0000),(185,6,0x8000929a0000),(186,6,0x8000929a0000),(187,6,0x8000929a0000),(188,6,0x8000929a0000),(189,6,0x8000929a0000)]
  .l)
  [(224,2,0x1fffefbff89ebf6c7e),(225,2,0x1fffefbff89ebf6c7e),(226,2,0x1fffefbff89ebf6c7e),(227,2,0x1fffefbff89ebf6c7e),(228,2,0x1fffefbff89ebf6c7e),(229,2,0x1fffefbff89ebf6c7e),(230,2,0x1fffefbff89ebf6c7e),(231,2,0x1fffefbff89ebf6c7e)]
  (.n .l [(117,6,0x1060048000929f6074)] .l)))))
  [(13,1,0x1000008000929f6020),(14,1,0x1000008000929f6020),(15,1,0x1000008000929f6020),(16,1,0x1000008000929f6020)]
  (.n (.n (.n (.n (.n (.n .l [(82,6,0x4000000000020074),(303,1,0x4000000000020074)] .l)
  [(304,1,0x1800008000929f6020)] .l) [(250,1,0x1fffefbff89ebf6c7e)] (.n .l
  [(286,4,0x1fffefbff89ebf6c7e)] .l)) [(29,3,0x1000008000929f6020),(30,3,0x1000008000929f6020)]
  (.n (.n (.n .l [(102,9,0x1060048000929f6074)] .l) [(145,3,0x1fffefbff89ebf6c7e)] .l)
  [(308,1,0x88000000000000000)] (.n .l [(123,3,0x2000000000000)] .l)))
  [(25,2,0x1000008000929f6020),(26,2,0x1000008000929f6020)] (.n (.n (.n (.n .l
  [(161,10,0x8000929a0000),(162,10,0x8000929a0000),(163,10,0x8000929a0000),(164,10,0x8000929a0000),(165,10,0x8000929a0000),(166,10,0x8000929a0000),(167,10,0x8000929a0000)]
  .l) [(28,6,0x1000008000929f6020)] .l) [(60,4,0x1000008000929f6020)] (.n .l
  [(126,3,0x1000008000929f6020),(144,1,0x6bf493ff800000000),(251,1,0x6bf493ff800000000),(252,1,0x6bf493ff800000000),(253,1,0x6bf493ff800000000),(254,1,0x6bf493ff800000000),(255,1,0x6bf493ff800000000),(256,1,0x6bf493ff800000000),(257,1,0x6bf493ff800000000),(258,1,0x6bf493ff800000000),(264,1,0x6bf493ff800000000),(265,1,0x6bf493ff800000000),(267,1,0x6bf493ff800000000),(268,1,0x6bf493ff800000000),(275,1,0x6bf493ff800000000),(276,1,0x6bf493ff800000000),(278,1,0x6bf493ff800000000),(279,1,0x6bf493ff800000000),(280,1,0x6bf493ff800000000),(285,1,0x6bf493ff800000000),(286,1,0x6bf493ff800000000),(287,1,0x6bf493ff800000000),(288,1,0x6bf493ff800000000),(289,1,0x6bf493ff800000000),(290,1,0x6bf493ff800000000),(291,1,0x6bf493ff800000000)]
  .l)) [(20,4,0x1000008000929f6020)] (.n (.n (.n .l
  [(155,16,0x8000929a0000),(156,16,0x8000929a0000)] .l)
  [(144,1,0x1e3f49bff8929f6020),(251,1,0x1e3f49bff8929f6020),(252,1,0x1e3f49bff8929f6020),(253,1,0x1e3f49bff8929f6020),(254,1,0x1e3f49bff8929f6020),(255,1,0x1e3f49bff8929f6020),(256,1,0x1e3f49bff8929f6020),(257,1,0x1e3f49bff8929f6020),(258,1,0x1e3f49bff8929f6020),(264,1,0x1e3f49bff8929f6020),(265,1,0x1e3f49bff8929f6020),(267,1,0x1e3f49bff8929f6020),(268,1,0x1e3f49bff8929f6020),(275,1,0x1e3f49bff8929f6020),(276,1,0x1e3f49bff8929f6020),(278,1,0x1e3f49bff8929f6020),(279,1,0x1e3f49bff8929f6020),(280,1,0x1e3f49bff8929f6020),(285,1,0x1e3f49bff8929f6020),(286,1,0x1e3f49bff8929f6020),(287,1,0x1e3f49bff8929f6020),(288,1,0x1e3f49bff8929f6020),(289,1,0x1e3f49bff8929f6020),(290,1,0x1e3f49bff8929f6020),(291,1,0x1e3f49bff8929f6020),(304,2,0x1800008000929f6020)]
  .l)
  [(144,1,0x73fed3ff80c200c3e),(251,1,0x73fed3ff80c200c3e),(252,1,0x73fed3ff80c200c3e),(253,1,0x73fed3ff80c200c3e),(254,1,0x73fed3ff80c200c3e),(255,1,0x73fed3ff80c200c3e),(256,1,0x73fed3ff80c200c3e),(257,1,0x73fed3ff80c200c3e),(258,1,0x73fed3ff80c200c3e),(264,1,0x73fed3ff80c200c3e),(265,1,0x73fed3ff80c200c3e),(267,1,0x73fed3ff80c200c3e),(268,1,0x73fed3ff80c200c3e),(275,1,0x73fed3ff80c200c3e),(276,1,0x73fed3ff80c200c3e),(278,1,0x73fed3ff80c200c3e),(279,1,0x73fed3ff80c200c3e),(280,1,0x73fed3ff80c200c3e),(285,1,0x73fed3ff80c200c3e),(286,1,0x73fed3ff80c200c3e),(287,1,0x73fed3ff80c200c3e),(288,1,0x73fed3ff80c200c3e),(289,1,0x73fed3ff80c200c3e),(290,1,0x73fed3ff80c200c3e),(291,1,0x73fed3ff80c200c3e),(312,1,0x103a100000c200c1e),(313,1,0x103a100000c200c1e),(314,1,0x103a100000c200c1e),(315,1,0x103a100000c200c1e)]
  (.n .l [(145,6,0x1fffefbff89ebf6c7e)] .l))))
  [(60,1,0x1000008000929f6020),(61,1,0x1000008000929f6020)] (.n (.n (.n (.n (.n .l
  [(115,7,0x1060048000929f6074)] .l) [(303,2,0x143a100000c220c7e)] .l)
  [(266,1,0x1fffefbff89ebf6c7e)] (.n .l [(311,2,0x183a500000c200c3e)] .l))
  [(8,4,0x1000008000929f6020)] (.n (.n (.n .l
  [(197,13,0x8000929a0000),(198,13,0x8000929a0000),(199,13,0x8000929a0000),(200,13,0x8000929a0000)]
  .l)
  [(228,3,0x1fffefbff89ebf6c7e),(229,3,0x1fffefbff89ebf6c7e),(338,1,0x8004000000000020),(339,1,0x8004000000000020)]
  .l) [(253,2,0x1fffefbff89ebf6c7e)] (.n .l [(300,3,0x8004000000000000)] .l)))
  [(8,3,0x1000008000929f6020)] (.n (.n (.n (.n .l [(99,8,0x1060048000929f6074)] .l)
  [(144,1,0x1fffefbff89ebf6c7e),(251,1,0x1fffefbff89ebf6c7e),(252,1,0x1fffefbff89ebf6c7e),(253,1,0x1fffefbff89ebf6c7e),(254,1,0x1fffefbff89ebf6c7e),(255,1,0x1fffefbff89ebf6c7e),(256,1,0x1fffefbff89ebf6c7e),(257,1,0x1fffefbff89ebf6c7e),(258,1,0x1fffefbff89ebf6c7e),(264,1,0x1fffefbff89ebf6c7e),(265,1,0x1fffefbff89ebf6c7e),(267,1,0x1fffefbff89ebf6c7e),(268,1,0x1fffefbff89ebf6c7e),(275,1,0x1fffefbff89ebf6c7e),(276,1,0x1fffefbff89ebf6c7e),(278,1,0x1fffefbff89ebf6c7e),(279,1,0x1fffefbff89ebf6c7e),(280,1,0x1fffefbff89ebf6c7e),(285,1,0x1fffefbff89ebf6c7e),(286,1,0x1fffefbff89ebf6c7e),(287,1,0x1fffefbff89ebf6c7e),(288,1,0x1fffefbff89ebf6c7e),(289,1,0x1fffefbff89ebf6c7e),(289,3,0x1fffefbff89ebf6c7e),(290,1,0x1fffefbff89ebf6c7e),(291,1,0x1fffefbff89ebf6c7e)]
  .l) [(9,5,0x1000008000929f6020),(10,5,0x1000008000929f6020)] (.n .l [(140,4,0x4004000000020074)]
  .l)) [(51,1,0x1fffefbff89ebf6c7e)] (.n (.n .l [(134,4,0x1fffefbff99ebf6c7e)] .l)
  [(26,5,0x1000008000929f6020)] (.n .l [(124,4,0x2000000000000)] .l))))))
  [(3,1,0x1000008000929f6020)] (.n (.n (.n (.n (.n (.n (.n .l
  [(205,9,0x8000929a0000),(206,9,0x8000929a0000),(207,9,0x8000929a0000),(208,9,0x8000929a0000),(209,9,0x8000929a0000),(210,9,0x8000929a0000),(211,9,0x8000929a0000)]
  .l) [(75,1,0x1000008000929f6020)] .l) [(246,1,0x1fffefbff89ebf6c7e)] (.n .l
  [(309,3,0x88000000000000000)] .l)) [(90,1,0x18a1148008929f6020)] (.n (.n (.n .l
  [(219,11,0x8000929a0000),(220,11,0x8000929a0000),(221,11,0x8000929a0000),(222,11,0x8000929a0000)]
  .l)
  [(144,1,0x1fffefbff89ebf6c7e),(251,1,0x1fffefbff89ebf6c7e),(252,1,0x1fffefbff89ebf6c7e),(253,1,0x1fffefbff89ebf6c7e),(254,1,0x1fffefbff89ebf6c7e),(255,1,0x1fffefbff89ebf6c7e),(255,3,0x1fffefbff89ebf6c7e),(256,1,0x1fffefbff89ebf6c7e),(257,1,0x1fffefbff89ebf6c7e),(258,1,0x1fffefbff89ebf6c7e),(264,1,0x1fffefbff89ebf6c7e),(265,1,0x1fffefbff89ebf6c7e),(267,1,0x1fffefbff89ebf6c7e),(268,1,0x1fffefbff89ebf6c7e),(275,1,0x1fffefbff89ebf6c7e),(276,1,0x1fffefbff89ebf6c7e),(278,1,0x1fffefbff89ebf6c7e),(279,1,0x1fffefbff89ebf6c7e),(280,1,0x1fffefbff89ebf6c7e),(285,1,0x1fffefbff89ebf6c7e),(286,1,0x1fffefbff89ebf6c7e),(287,1,0x1fffefbff89ebf6c7e),(288,1,0x1fffefbff89ebf6c7e),(289,1,0x1fffefbff89ebf6c7e),(290,1,0x1fffefbff89ebf6c7e),(291,1,0x1fffefbff89ebf6c7e)]
  .l)
  [(15,5,0x1000008000929f6020),(144,1,0x163f49bff8929f6020),(251,1,0x163f49bff8929f6020),(252,1,0x163f49bff8929f6020),(253,1,0x163f49bff8929f6020),(254,1,0x163f49bff8929f6020),(255,1,0x163f49bff8929f6020),(256,1,0x163f49bff8929f6020),(257,1,0x163f49bff8929f6020),(258,1,0x163f49bff8929f6020),(264,1,0x163f49bff8929f6020),(265,1,0x163f49bff8929f6020),(267,1,0x163f49bff8929f6020),(268,1,0x163f49bff8929f6020),(275,1,0x163f49bff8929f6020),(276,1,0x163f49bff8929f6020),(278,1,0x163f49bff8929f6020),(279,1,0x163f49bff8929f6020),(280,1,0x163f49bff8929f6020),(285,1,0x163f49bff8929f6020),(286,1,0x163f49bff8929f6020),(287,1,0x163f49bff8929f6020),(288,1,0x163f49bff8929f6020),(289,1,0x163f49bff8929f6020),(290,1,0x163f49bff8929f6020),(291,1,0x163f49bff8929f6020)]
  (.n .l
  [(98,5,0x1060048000929f6074),(99,5,0x1060048000929f6074),(100,5,0x1060048000929f6074),(101,5,0x1060048000929f6074)]
  .l))) [(31,2,0x1000008000929f6020)] (.n (.n (.n (.n .l
  [(124,5,0x2000000000000),(144,1,0x6bf493ff800000000),(251,1,0x6bf493ff800000000),(252,1,0x6bf493ff800000000),(253,1,0x6bf493ff800000000),(254,1,0x6bf493ff800000000),(255,1,0x6bf493ff800000000),(256,1,0x6bf493ff800000000),(257,1,0x6bf493ff800000000),(258,1,0x6bf493ff800000000),(264,1,0x6bf493ff800000000),(265,1,0x6bf493ff800000000),(267,1,0x6bf493ff800000000),(268,1,0x6bf493ff800000000),(275,1,0x6bf493ff800000000),(276,1,0x6bf493ff800000000),(278,1,0x6bf493ff800000000),(279,1,0x6bf493ff800000000),(280,1,0x6bf493ff800000000),(285,1,0x6bf493ff800000000),(286,1,0x6bf493ff800000000),(287,1,0x6bf493ff800000000),(288,1,0x6bf493ff800000000),(289,1,0x6bf493ff800000000),(290,1,0x6bf493ff800000000),(291,1,0x6bf493ff800000000)]
  .l) [(17,6,0x1000008000929f6020)] .l)
  [(146,4,0x8000929a0000),(147,4,0x8000929a0000),(148,4,0x8000929a0000),(149,4,0x8000929a0000),(150,4,0x8000929a0000),(151,4,0x8000929a0000),(152,4,0x8000929a0000),(153,4,0x8000929a0000),(154,4,0x8000929a0000),(155,4,0x8000929a0000),(156,4,0x8000929a0000),(157,4,0x8000929a0000),(158,4,0x8000929a0000),(159,4,0x8000929a0000),(160,4,0x8000929a0000),(161,4,0x8000929a0000),(162,4,0x8000929a0000),(163,4,0x8000929a0000),(164,4,0x8000929a0000),(165,4,0x8000929a0000),(166,4,0x8000929a0000),(167,4,0x8000929a0000),(168,4,0x8000929a0000),(169,4,0x8000929a0000),(170,4,0x8000929a0000),(171,4,0x8000929a0000),(172,4,0x8000929a0000),(173,4,0x8000929a0000),(174,4,0x8000929a0000),(175,4,0x8000929a0000),(176,4,0x8000929a0000),(177,4,0x8000929a0000),(178,4,0x8000929a0000),(179,4,0x8000929a0000),(180,4,0x8000929a0000),(181,4,0x8000929a0000),(182,4,0x8000929a0000),(183,4,0x8000929a0000),(184,4,0x8000929a0000),(185,4,0x8000929a0000),(186,4,0x8000929a0000),(187,4,0x8000929a0000),(188,4,0x8000929a0000),(189,4,0x8000929a0000)]
  (.n .l
  [(144,1,0x6bf4d3ff800000020),(251,1,0x6bf4d3ff800000020),(252,1,0x6bf4d3ff800000020),(253,1,0x6bf4d3ff800000020),(254,1,0x6bf4d3ff800000020),(255,1,0x6bf4d3ff800000020),(256,1,0x6bf4d3ff800000020),(257,1,0x6bf4d3ff800000020),(258,1,0x6bf4d3ff800000020),(264,1,0x6bf4d3ff800000020),(265,1,0x6bf4d3ff800000020),(267,1,0x6bf4d3ff800000020),(268,1,0x6bf4d3ff800000020),(275,1,0x6bf4d3ff800000020),(276,1,0x6bf4d3ff800000020),(278,1,0x6bf4d3ff800000020),(279,1,0x6bf4d3ff800000020),(280,1,0x6bf4d3ff800000020),(285,1,0x6bf4d3ff800000020),(286,1,0x6bf4d3ff800000020),(287,1,0x6bf4d3ff800000020),(288,1,0x6bf4d3ff800000020),(289,1,0x6bf4d3ff800000020),(290,1,0x6bf4d3ff800000020),(291,1,0x6bf4d3ff800000020),(339,3,0x8004000000000020)]
  .l)) [(306,1,0x18a1148008929f6020)] (.n (.n (.n .l [(211,15,0x8000929a0000)] .l)
  [(98,2,0x1000008000929f6020),(99,2,0x1000008000929f6020),(100,2,0x1000008000929f6020),(101,2,0x1000008000929f6020),(102,2,0x1000008000929f6020),(103,2,0x1000008000929f6020),(104,2,0x1000008000929f6020),(105,2,0x1000008000929f6020),(106,2,0x1000008000929f6020),(107,2,0x1000008000929f6020),(108,2,0x1000008000929f6020),(109,2,0x1000008000929f6020)]
  .l)
  [(98,2,0x1060048000929f6074),(99,2,0x1060048000929f6074),(100,2,0x1060048000929f6074),(101,2,0x1060048000929f6074),(102,2,0x1060048000929f6074),(103,2,0x1060048000929f6074),(104,2,0x1060048000929f6074),(105,2,0x1060048000929f6074),(106,2,0x1060048000929f6074),(107,2,0x1060048000929f6074),(108,2,0x1060048000929f6074),(109,2,0x1060048000929f6074),(302,1,0x103a100000c200c3e)]
  (.n .l [(287,6,0x1fffefbff89ebf6c7e),(342,1,0x8004000000000000),(343,1,0x8004000000000000)]
  .l)))) [(297,2,0x1000008000929f6020)] (.n (.n (.n (.n (.n .l [(104,7,0x1060048000929f6074)] .l)
  [(4,6,0x1000008000929f6020)] .l) [(281,1,0x1fffefbff89ebf6c7e)] (.n .l
  [(130,4,0x1fffefbff89ebf6c7e)] .l)) [(96,3,0x4004000001000000)] (.n (.n (.n .l
  [(152,13,0x8000929a0000),(153,13,0x8000929a0000),(154,13,0x8000929a0000),(155,13,0x8000929a0000),(156,13,0x8000929a0000)]
  .l) [(303,1,0x103a100000c200c3e),(314,2,0x103a100000c200c1e)] .l) [(258,2,0x1fffefbff89ebf6c7e)]
  (.n .l [(126,4,0x1000008000929f6020)] .l))) [(94,2,0x4004000001000000)] (.n (.n (.n (.n .l
  [(108,8,0x1060048000929f6074)] .l)
  [(144,1,0x1fffefbff89ebf6c7e),(251,1,0x1fffefbff89ebf6c7e),(252,1,0x1fffefbff89ebf6c7e),(253,1,0x1fffefbff89ebf6c7e),(254,1,0x1fffefbff89ebf6c7e),(255,1,0x1fffefbff89ebf6c7e),(256,1,0x1fffefbff89ebf6c7e),(257,1,0x1fffefbff89ebf6c7e),(258,1,0x1fffefbff89ebf6c7e),(264,1,0x1fffefbff89ebf6c7e),(265,1,0x1fffefbff89ebf6c7e),(267,1,0x1fffefbff89ebf6c7e),(268,1,0x1fffefbff89ebf6c7e),(275,1,0x1fffefbff89ebf6c7e),(276,1,0x1fffefbff89ebf6c7e),(278,1,0x1fffefbff89ebf6c7e),(279,1,0x1fffefbff89ebf6c7e),(280,1,0x1fffefbff89ebf6c7e),(285,1,0x1fffefbff89ebf6c7e),(286,1,0x1fffefbff89ebf6c7e),(287,1,0x1fffefbff89ebf6c7e),(288,1,0x1fffefbff89ebf6c7e),(289,1,0x1fffefbff89ebf6c7e),(290,1,0x1fffefbff89ebf6c7e),(291,1,0x1fffefbff89ebf6c7e),(291,3,0x1fffefbff89ebf6c7e)]
  .l) [(143,1,0x2000000000000)] (.n .l
  [(203,7,0x8000929a0000),(204,7,0x8000929a0000),(205,7,0x8000929a0000),(206,7,0x8000929a0000),(207,7,0x8000929a0000),(208,7,0x8000929a0000),(209,7,0x8000929a0000),(210,7,0x8000929a0000),(211,7,0x8000929a0000)]
  .l)) [(46,1,0x1fffefbff89ebf6c7e)] (.n (.n .l [(60,6,0x1000008000929f6020)] .l)
  [(336,1,0x8004000000000020),(337,1,0x8004000000000020)] (.n .l [(121,6,0x1060048000929f6074)]
  .l))))) [(32,1,0x1000008000929f6020)] (.n (.n (.n (.n (.n (.n .l [(287,7,0x1fffefbff89ebf6c7e)]
  .l)
  [(144,1,0x6bf493ff800000020),(146,5,0x8000929a0000),(147,5,0x8000929a0000),(148,5,0x8000929a0000),(149,5,0x8000929a0000),(150,5,0x8000929a0000),(151,5,0x8000929a0000),(152,5,0x8000929a0000),(153,5,0x8000929a0000),(154,5,0x8000929a0000),(155,5,0x8000929a0000),(156,5,0x8000929a0000),(157,5,0x8000929a0000),(158,5,0x8000929a0000),(159,5,0x8000929a0000),(160,5,0x8000929a0000),(161,5,0x8000929a0000),(162,5,0x8000929a0000),(163,5,0x8000929a0000),(164,5,0x8000929a0000),(165,5,0x8000929a0000),(166,5,0x8000929a0000),(167,5,0x8000929a0000),(251,1,0x6bf493ff800000020),(252,1,0x6bf493ff800000020),(253,1,0x6bf493ff800000020),(254,1,0x6bf493ff800000020),(255,1,0x6bf493ff800000020),(256,1,0x6bf493ff800000020),(257,1,0x6bf493ff800000020),(258,1,0x6bf493ff800000020),(264,1,0x6bf493ff800000020),(265,1,0x6bf493ff800000020),(267,1,0x6bf493ff800000020),(268,1,0x6bf493ff800000020),(275,1,0x6bf493ff800000020),(276,1,0x6bf493ff800000020),(278,1,0x6bf493ff800000020),(279,1,0x6bf493ff800000020),(280,1,0x6bf493ff800000020),(285,1,0x6bf493ff800000020),(286,1,0x6bf493ff800000020),(287,1,0x6bf493ff800000020),(288,1,0x6bf493ff800000020),(289,1,0x6bf493ff800000020),(290,1,0x6bf493ff800000020),(291,1,0x6bf493ff800000020)]
  .l) [(262,1,0x1fffefbff89ebf6c7e)] (.n .l
  [(106,4,0x1060048000929f6074),(107,4,0x1060048000929f6074),(108,4,0x1060048000929f6074),(109,4,0x1060048000929f6074)]
  .l)) [(34,3,0x1000008000929f6020)] (.n (.n (.n .l
  [(163,12,0x8000929a0000),(164,12,0x8000929a0000),(165,12,0x8000929a0000),(166,12,0x8000929a0000),(167,12,0x8000929a0000)]
  .l)
  [(118,3,0x1060048000929f6074),(119,3,0x1060048000929f6074),(120,3,0x1060048000929f6074),(121,3,0x1060048000929f6074)]
  .l) [(254,2,0x1fffefbff89ebf6c7e)] (.n .l
  [(144,1,0x7bfed3ff80c200c3e),(251,1,0x7bfed3ff80c200c3e),(252,1,0x7bfed3ff80c200c3e),(253,1,0x7bfed3ff80c200c3e),(254,1,0x7bfed3ff80c200c3e),(255,1,0x7bfed3ff80c200c3e),(256,1,0x7bfed3ff80c200c3e),(257,1,0x7bfed3ff80c200c3e),(258,1,0x7bfed3ff80c200c3e),(264,1,0x7bfed3ff80c200c3e),(265,1,0x7bfed3ff80c200c3e),(267,1,0x7bfed3ff80c200c3e),(268,1,0x7bfed3ff80c200c3e),(275,1,0x7bfed3ff80c200c3e),(276,1,0x7bfed3ff80c200c3e),(278,1,0x7bfed3ff80c200c3e),(279,1,0x7bfed3ff80c200c3e),(280,1,0x7bfed3ff80c200c3e),(285,1,0x7bfed3ff80c200c3e),(286,1,0x7bfed3ff80c200c3e),(287,1,0x7bfed3ff80c200c3e),(288,1,0x7bfed3ff80c200c3e),(289,1,0x7bfed3ff80c200c3e),(290,1,0x7bfed3ff80c200c3e),(291,1,0x7bfed3ff80c200c3e),(311,3,0x183a500000c200c3e)]
  .l))) [(36,2,0x1000008000929f6020)] (.n (.n (.n (.n .l
  [(206,10,0x8000929a0000),(207,10,0x8000929a0000),(208,10,0x8000929a0000),(209,10,0x8000929a0000),(210,10,0x8000929a0000),(211,10,0x8000929a0000)]
  .l) [(309,2,0x88000000000000000)] .l)
  [(136,2,0x1fffefbff99ebf6c7e),(328,1,0x4000000000020054),(329,1,0x4000000000020054),(330,1,0x4000000000020054),(331,1,0x4000000000020054),(332,1,0x4000000000020054),(333,1,0x4000000000020054)]
  (.n .l [(65,6,0x1000008000929f6020)] .l))
  [(56,1,0x1fffefbff89ebf6c7e),(57,1,0x1fffefbff89ebf6c7e)] (.n (.n .l
  [(66,5,0x1000008000929f6020)] .l) [(43,2,0x1fffefbff89ebf6c7e)] (.n .l
  [(114,6,0x1060048000929f6074),(115,6,0x1060048000929f6074),(144,1,0x73f493ff800000020),(251,1,0x73f493ff800000020),(252,1,0x73f493ff800000020),(253,1,0x73f493ff800000020),(254,1,0x73f493ff800000020),(255,1,0x73f493ff800000020),(256,1,0x73f493ff800000020),(257,1,0x73f493ff800000020),(258,1,0x73f493ff800000020),(264,1,0x73f493ff800000020),(265,1,0x73f493ff800000020),(267,1,0x73f493ff800000020),(268,1,0x73f493ff800000020),(275,1,0x73f493ff800000020),(276,1,0x73f493ff800000020),(278,1,0x73f493ff800000020),(279,1,0x73f493ff800000020),(280,1,0x73f493ff800000020),(285,1,0x73f493ff800000020),(286,1,0x73f493ff800000020),(287,1,0x73f493ff800000020),(288,1,0x73f493ff800000020),(289,1,0x73f493ff800000020),(290,1,0x73f493ff800000020),(291,1,0x73f493ff800000020)]
  .l)))) [(96,1,0x4004000001000000),(97,1,0x4004000001000000)] (.n (.n (.n (.n (.n .l
  [(144,1,0x73f493ff800000000),(251,1,0x73f493ff800000000),(252,1,0x73f493ff800000000),(253,1,0x73f493ff800000000),(254,1,0x73f493ff800000000),(255,1,0x73f493ff800000000),(256,1,0x73f493ff800000000),(257,1,0x73f493ff800000000),(258,1,0x73f493ff800000000),(264,1,0x73f493ff800000000),(265,1,0x73f493ff800000000),(267,1,0x73f493ff800000000),(268,1,0x73f493ff800000000),(275,1,0x73f493ff800000000),(276,1,0x73f493ff800000000),(278,1,0x73f493ff800000000),(279,1,0x73f493ff800000000),(280,1,0x73f493ff800000000),(285,1,0x73f493ff800000000),(286,1,0x73f493ff800000000),(286,3,0x73fe93ff80c200c3e),(287,1,0x73f493ff800000000),(288,1,0x73f493ff800000000),(289,1,0x73f493ff800000000),(290,1,0x73f493ff800000000),(291,1,0x73f493ff800000000)]
  .l) [(321,1,0x4004000000020074),(322,2,0x4000000000020054),(323,2,0x4000000000020054)] .l)
  [(29,4,0x1000008000929f6020)] (.n .l [(227,4,0x1fffefbff89ebf6c7e)] .l))
  [(19,4,0x1000008000929f6020)] (.n (.n (.n .l [(188,14,0x8000929a0000),(189,14,0x8000929a0000)]
  .l) [(234,3,0x1fffefbff89ebf6c7e)] .l) [(268,2,0x1fffefbff89ebf6c7e)] (.n .l
  [(182,8,0x8000929a0000),(183,8,0x8000929a0000),(184,8,0x8000929a0000),(185,8,0x8000929a0000),(186,8,0x8000929a0000),(187,8,0x8000929a0000),(188,8,0x8000929a0000),(189,8,0x8000929a0000)]
  .l))) [(23,3,0x1000008000929f6020),(24,3,0x1000008000929f6020)] (.n (.n (.n (.n .l
  [(110,8,0x1060048000929f6074)] .l)
  [(144,1,0x1fffefbff89ebf6c7e),(251,1,0x1fffefbff89ebf6c7e),(252,1,0x1fffefbff89ebf6c7e),(253,1,0x1fffefbff89ebf6c7e),(254,1,0x1fffefbff89ebf6c7e),(255,1,0x1fffefbff89ebf6c7e),(256,1,0x1fffefbff89ebf6c7e),(257,1,0x1fffefbff89ebf6c7e),(258,1,0x1fffefbff89ebf6c7e),(264,1,0x1fffefbff89ebf6c7e),(264,3,0x1fffefbff89ebf6c7e),(265,1,0x1fffefbff89ebf6c7e),(267,1,0x1fffefbff89ebf6c7e),(268,1,0x1fffefbff89ebf6c7e),(275,1,0x1fffefbff89ebf6c7e),(276,1,0x1fffefbff89ebf6c7e),(278,1,0x1fffefbff89ebf6c7e),(279,1,0x1fffefbff89ebf6c7e),(280,1,0x1fffefbff89ebf6c7e),(285,1,0x1fffefbff89ebf6c7e),(286,1,0x1fffefbff89ebf6c7e),(287,1,0x1fffefbff89ebf6c7e),(288,1,0x1fffefbff89ebf6c7e),(289,1,0x1fffefbff89ebf6c7e),(290,1,0x1fffefbff89ebf6c7e),(291,1,0x1fffefbff89ebf6c7e)]
  .l) [(18,5,0x1000008000929f6020)] (.n .l
  [(144,1,0x6bf4d3ff800000000),(251,1,0x6bf4d3ff800000000),(252,1,0x6bf4d3ff800000000),(253,1,0x6bf4d3ff800000000),(254,1,0x6bf4d3ff800000000),(255,1,0x6bf4d3ff800000000),(256,1,0x6bf4d3ff800000000),(257,1,0x6bf4d3ff800000000),(258,1,0x6bf4d3ff800000000),(264,1,0x6bf4d3ff800000000),(265,1,0x6bf4d3ff800000000),(267,1,0x6bf4d3ff800000000),(268,1,0x6bf4d3ff800000000),(275,1,0x6bf4d3ff800000000),(276,1,0x6bf4d3ff800000000),(278,1,0x6bf4d3ff800000000),(279,1,0x6bf4d3ff800000000),(280,1,0x6bf4d3ff800000000),(285,1,0x6bf4d3ff800000000),(286,1,0x6bf4d3ff800000000),(287,1,0x6bf4d3ff800000000),(287,5,0x1fffefbff89ebf6c7e),(288,1,0x6bf4d3ff800000000),(289,1,0x6bf4d3ff800000000),(290,1,0x6bf4d3ff800000000),(291,1,0x6bf4d3ff800000000)]
  .l))
  [(224,1,0x1fffefbff89ebf6c7e),(225,1,0x1fffefbff89ebf6c7e),(226,1,0x1fffefbff89ebf6c7e),(227,1,0x1fffefbff89ebf6c7e),(228,1,0x1fffefbff89ebf6c7e),(229,1,0x1fffefbff89ebf6c7e),(230,1,0x1fffefbff89ebf6c7e),(231,1,0x1fffefbff89ebf6c7e),(232,1,0x1fffefbff89ebf6c7e),(233,1,0x1fffefbff89ebf6c7e),(234,1,0x1fffefbff89ebf6c7e),(235,1,0x1fffefbff89ebf6c7e),(236,1,0x1fffefbff89ebf6c7e),(237,1,0x1fffefbff89ebf6c7e),(238,1,0x1fffefbff89ebf6c7e)]
  (.n (.n .l [(142,1,0x2000000000000)] .l) [(30,5,0x1000008000929f6020)] (.n .l
  [(64,8,0x1000008000929f6020)] .l)))))))))
/-- nonterminals that can start in a state: what they may start with, what can follow -/
def closTab : Bt (List (Nat × Nat × Nat)) :=
  (.n (.n (.n (.n (.n (.n (.n (.n (.n (.n .l [] .l) [] .l) [] (.n .l [] .l))
  [(145,0x1fffffffffffffffff,0x10000000008000)] (.n (.n (.n .l [] .l) [] .l) [] (.n .l [] .l))) []
  (.n (.n (.n (.n .l [] .l)
  [(153,0x1fffffffffffffffff,0x2000000000000),(156,0x1fffffffffffffffff,0x4004000000020074),(157,0x1fffffffffffffffff,0x2000000000000)]
  .l)
  [(137,0x1fffffffffffffffff,0x1000008000929f6020),(148,0x1fffffffffffffffff,0x1000008000929f6020),(152,0x1fffffffffffffffff,0x1000008000929f6020),(155,0x1fffffffffffffffff,0x1000008000929f6020)]
  (.n .l [] .l)) [] (.n (.n (.n .l [] .l)
  [(130,0x1fffffffffffffffff,0x6bf4d3ff800000020),(131,0x1fffffffffffffffff,0x6bf4c3ff800000020),(154,0x1fffffffffffffffff,0x6bf4d3ff800000020),(155,0x1fffffffffffffffff,0x6bf4d3ff800000020),(158,0x1fffffffffffffffff,0x6bf4d3ff800000020),(161,0x1fffffffffffffffff,0x6bf4d3ff800000020),(162,0x1fffffffffffffffff,0x6bf4d3ff800000020),(163,0x1fffffffffffffffff,0x6bf4d3ff800000020),(164,0x1fffffffffffffffff,0x6bf4d3ff800000020),(165,0x1fffffffffffffffff,0x6bf4d3ff800000020),(166,0x1fffffffffffffffff,0x6bf4d3ff800000020),(167,0x1fffffffffffffffff,0x6bf4d3ff800000020),(168,0x1fffffffffffffffff,0x6bf4d3ff800000020),(169,0x1fffffffffffffffff,0x6bf4d3ff800000020),(170,0x1fffffffffffffffff,0x6bf4d3ff800000020),(171,0x1fffffffffffffffff,0x6bf4d3ff800000020),(172,0x1fffffffffffffffff,0x6bf4d3ff800000020),(173,0x1fffffffffffffffff,0x6bf4d3ff800000020),(174,0x1fffffffffffffffff,0x6bf4d3ff800000020),(175,0x1fffffffffffffffff,0x6bf4d3ff800000020),(176,0x1fffffffffffffffff,0x6bf4d3ff800000020),(177,0x1fffffffffffffffff,0x6bf4d3ff800000020),(178,0x1fffffffffffffffff,0x6bf4d3ff800000020),(179,0x1fffffffffffffffff,0x6bf4d3ff800000020),(180,0x1fffffffffffffffff,0x6bf4d3ff800000020),(181,0x1fffffffffffffffff,0x6bf4d3ff800000020),(182,0x1fffffffffffffffff,0x6bf4d3ff800000020),(183,0x1fffffffffffffffff,0x6bf4d3ff800000020),(184,0x1fffffffffffffffff,0x6bf4d3ff800000020),(185,0x1fffffffffffffffff,0x6bf4d3ff800000020),(186,0x1fffffffffffffffff,0x6bf4d3ff800000020),(187,0x1fffffffffffffffff,0x6bf4d3ff800000020),(188,0x1fffffffffffffffff,0x6bf4d3ff800000020),(189,0x1fffffffffffffffff,0x6bf4d3ff800000020)]
  .l)
  [(130,0x1fffffffffffffffff,0x1fffefbff89ebf6c7e),(131,0x1fffffffffffffffff,0x1fffefbff89ebf6c7e),(154,0x1fffffffffffffffff,0x1fffefbff89ebf6c7e),(155,0x1fffffffffffffffff,0x1fffefbff89ebf6c7e),(158,0x1fffffffffffffffff,0x1fffefbff89ebf6c7e),(161,0x1fffffffffffffffff,0x1fffefbff89ebf6c7e),(162,0x1fffffffffffffffff,0x1fffefbff89ebf6c7e),(163,0x1fffffffffffffffff,0x1fffefbff89ebf6c7e),(164,0x1fffffffffffffffff,0x1fffefbff89ebf6c7e),(165,0x1fffffffffffffffff,0x1fffefbff89ebf6c7e),(166,0x1fffffffffffffffff,0x1fffefbff89ebf6c7e),(167,0x1fffffffffffffffff,0x1fffefbff89ebf6c7e),(168,0x1fffffffffffffffff,0x1fffefbff89ebf6c7e),(169,0x1fffffffffffffffff,0x1fffefbff89ebf6c7e),(170,0x1fffffffffffffffff,0x1fffefbff89ebf6c7e),(171,0x1fffffffffffffffff,0x1fffefbff89ebf6c7e),(172,0x1fffffffffffffffff,0x1fffefbff89ebf6c7e),(173,0x1fffffffffffffffff,0x1fffefbff89ebf6c7e),(174,0x1fffffffffffffffff,0x1fffefbff89ebf6c7e),(175,0x1fffffffffffffffff,0x1fffefbff89ebf6c7e),(176,0x1fffffffffffffffff,0x1fffefbff89ebf6c7e),(177,0x1fffffffffffffffff,0x1fffefbff89ebf6c7e),(178,0x1fffffffffffffffff,0x1fffefbff89ebf6c7e),(179,0x1fffffffffffffffff,0x1fffefbff89ebf6c7e),(180,0x1fffffffffffffffff,0x1fffefbff89ebf6c7e),(181,0x1fffffffffffffffff,0x1fffefbff89ebf6c7e),(182,0x1fffffffffffffffff,0x1fffefbff89ebf6c7e),(183,0x1fffffffffffffffff,0x1fffefbff89ebf6c7e),(184,0x1fffffffffffffffff,0x1fffefbff89ebf6c7e),(185,0x1fffffffffffffffff,0x1fffefbff89ebf6c7e),(186,0x1fffffffffffffffff,0x1fffefbff89ebf6c7e),(187,0x1fffffffffffffffff,0x1fffefbff89ebf6c7e),(188,0x1fffffffffffffffff,0x1fffefbff89ebf6c7e),(189,0x1fffffffffffffffff,0x1fffefbff89ebf6c7e)]
  (.n .l [] .l)))) [] (.n (.n (.n (.n (.n .l [] .l) [] .l) [] (.n .l [] .l)) [] (.n (.n (.n .l []
  .l) [] .l)
  [(130,0x1fffffffffffffffff,0x1fffefbff89ebf6c7e),(131,0x1fffffffffffffffff,0x1fffefbff89ebf6c7e),(154,0x1fffffffffffffffff,0x1fffefbff89ebf6c7e),(155,0x1fffffffffffffffff,0x1fffefbff89ebf6c7e),(158,0x1fffffffffffffffff,0x1fffefbff89ebf6c7e),(161,0x1fffffffffffffffff,0x1fffefbff89ebf6c7e),(162,0x1fffffffffffffffff,0x1fffefbff89ebf6c7e),(163,0x1fffffffffffffffff,0x1fffefbff89ebf6c7e),(164,0x1fffffffffffffffff,0x1fffefbff89ebf6c7e),(165,0x1fffffffffffffffff,0x1fffefbff89ebf6c7e),(166,0x1fffffffffffffffff,0x1fffefbff89ebf6c7e),(167,0x1fffffffffffffffff,0x1fffefbff89ebf6c7e),(168,0x1fffffffffffffffff,0x1fffefbff89ebf6c7e),(169,0x1fffffffffffffffff,0x1fffefbff89ebf6c7e),(170,0x1fffffffffffffffff,0x1fffefbff89ebf6c7e),(171,0x1fffffffffffffffff,0x1fffefbff89ebf6c7e),(172,0x1fffffffffffffffff,0x1fffefbff89ebf6c7e),(173,0x1fffffffffffffffff,0x1fffefbff89ebf6c7e),(174,0x1fffffffffffffffff,0x1fffefbff89ebf6c7e),(175,0x1fffffffffffffffff,0x1fffefbff89ebf6c7e),(176,0x1fffffffffffffffff,0x1fffefbff89ebf6c7e),(177,0x1fffffffffffffffff,0x1fffefbff89ebf6c7e),(178,0x1fffffffffffffffff,0x1fffefbff89ebf6c7e),(179,0x1fffffffffffffffff,0x1fffefbff89ebf6c7e),(180,0x1fffffffffffffffff,0x1fffefbff89ebf6c7e),(181,0x1fffffffffffffffff,0x1fffefbff89ebf6c7e),(182,0x1fffffffffffffffff,0x1fffefbff89ebf6c7e),(183,0x1fffffffffffffffff,0x1fffefbff89ebf6c7e),(184,0x1fffffffffffffffff,0x1fffefbff89ebf6c7e),(185,0x1fffffffffffffffff,0x1fffefbff89ebf6c7e),(186,0x1fffffffffffffffff,0x1fffefbff89ebf6c7e),(187,0x1fffffffffffffffff,0x1fffefbff89ebf6c7e),(188,0x1fffffffffffffffff,0x1fffefbff89ebf6c7e),(189,0x1fffffffffffffffff,0x1fffefbff89ebf6c7e)]
  (.n .l [] .l))) [] (.n (.n (.n (.n .l [] .l) [] .l)
  [(139,0x1fffffffffffffffff,0x4000000000020074),(153,0x1fffffffffffffffff,0x2000000000000),(156,0x1fffffffffffffffff,0x4004000000020074),(157,0x1fffffffffffffffff,0x2000000000000),(200,0x1fffffffffffffffff,0x4000000000020054)]
  (.n .l
  [(141,0x1fffffffffffffffff,0x8004000000000000),(142,0x1fffffffffffffffff,0x8104000000000000),(143,0x1fffffffffffffffff,0x8104000000000000)]
  .l))
  [(130,0x1fffffffffffffffff,0x6bf4d3ff800000000),(131,0x1fffffffffffffffff,0x63f4c3ff800000000),(154,0x1fffffffffffffffff,0x6bf4d3ff800000000),(155,0x1fffffffffffffffff,0x6bf4d3ff800000000),(158,0x1fffffffffffffffff,0x6bf4d3ff800000000),(161,0x1fffffffffffffffff,0x6bf4d3ff800000000),(162,0x1fffffffffffffffff,0x6bf4d3ff800000000),(163,0x1fffffffffffffffff,0x6bf4d3ff800000000),(164,0x1fffffffffffffffff,0x6bf4d3ff800000000),(165,0x1fffffffffffffffff,0x6bf4d3ff800000000),(166,0x1fffffffffffffffff,0x6bf4d3ff800000000),(167,0x1fffffffffffffffff,0x6bf4d3ff800000000),(168,0x1fffffffffffffffff,0x6bf4d3ff800000000),(169,0x1fffffffffffffffff,0x6bf4d3ff800000000),(170,0x1fffffffffffffffff,0x6bf4d3ff800000000),(171,0x1fffffffffffffffff,0x6bf4d3ff800000000),(172,0x1fffffffffffffffff,0x6bf4d3ff800000000),(173,0x1fffffffffffffffff,0x6bf4d3ff800000000),(174,0x1fffffffffffffffff,0x6bf4d3ff800000000),(175,0x1fffffffffffffffff,0x6bf4d3ff800000000),(176,0x1fffffffffffffffff,0x6bf4d3ff800000000),(177,0x1fffffffffffffffff,0x6bf4d3ff800000000),(178,0x1fffffffffffffffff,0x6bf4d3ff800000000),(179,0x1fffffffffffffffff,0x6bf4d3ff800000000),(180,0x1fffffffffffffffff,0x6bf4d3ff800000000),(181,0x1fffffffffffffffff,0x6bf4d3ff800000000),(182,0x1fffffffffffffffff,0x6bf4d3ff800000000),(183,0x1fffffffffffffffff,0x6bf4d3ff800000000),(184,0x1fffffffffffffffff,0x6bf4d3ff800000000),(185,0x1fffffffffffffffff,0x6bf4d3ff800000000),(186,0x1fffffffffffffffff,0x6bf4d3ff800000000),(187,0x1fffffffffffffffff,0x6bf4d3ff800000000),(188,0x1fffffffffffffffff,0x6bf4d3ff800000000),(189,0x1fffffffffffffffff,0x6bf4d3ff800000000)]
  (.n (.n .l [] .l) [] (.n .l
  [(130,0x1fffffffffffffffff,0x73fe93ff80c200c3e),(131,0x1fffffffffffffffff,0x73fe93ff80c200c3e),(154,0x1fffffffffffffffff,0x73fe93ff80c200c3e),(155,0x1fffffffffffffffff,0x73fe93ff80c200c3e),(158,0x1fffffffffffffffff,0x73fe93ff80c200c3e),(161,0x1fffffffffffffffff,0x73fe93ff80c200c3e),(162,0x1fffffffffffffffff,0x73fe93ff80c200c3e),(163,0x1fffffffffffffffff,0x73fe93ff80c200c3e),(164,0x1fffffffffffffffff,0x73fe93ff80c200c3e),(165,0x1fffffffffffffffff,0x73fe93ff80c200c3e),(166,0x1fffffffffffffffff,0x73fe93ff80c200c3e),(167,0x1fffffffffffffffff,0x73fe93ff80c200c3e),(168,0x1fffffffffffffffff,0x73fe93ff80c200c3e),(169,0x1fffffffffffffffff,0x73fe93ff80c200c3e),(170,0x1fffffffffffffffff,0x73fe93ff80c200c3e),(171,0x1fffffffffffffffff,0x73fe93ff80c200c3e),(172,0x1fffffffffffffffff,0x73fe93ff80c200c3e),(173,0x1fffffffffffffffff,0x73fe93ff80c200c3e),(174,0x1fffffffffffffffff,0x73fe93ff80c200c3e),(175,0x1fffffffffffffffff,0x73fe93ff80c200c3e),(176,0x1fffffffffffffffff,0x73fe93ff80c200c3e),(177,0x1fffffffffffffffff,0x73fe93ff80c200c3e),(178,0x1fffffffffffffffff,0x73fe93ff80c200c3e),(179,0x1fffffffffffffffff,0x73fe93ff80c200c3e),(180,0x1fffffffffffffffff,0x73fe93ff80c200c3e),(181,0x1fffffffffffffffff,0x73fe93ff80c200c3e),(182,0x1fffffffffffffffff,0x73fe93ff80c200c3e),(183,0x1fffffffffffffffff,0x73fe93ff80c200c3e),(184,0x1fffffffffffffffff,0x73fe93ff80c200c3e),(185,0x1fffffffffffffffff,0x73fe93ff80c200c3e),(186,0x1fffffffffffffffff,0x73fe93ff80c200c3e),(187,0x1fffffffffffffffff,0x73fe93ff80c200c3e),(188,0x1fffffffffffffffff,0x73fe93ff80c200c3e),(189,0x1fffffffffffffffff,0x73fe93ff80c200c3e)]
  .l))))) [] (.n (.n (.n (.n (.n (.n .l [] .l) [] .l) [] (.n .l
  [(130,0x1fffffffffffffffff,0x6bf4d3ff800000000),(131,0x1fffffffffffffffff,0x6bf4c3ff800000000),(154,0x1fffffffffffffffff,0x6bf4d3ff800000000),(155,0x1fffffffffffffffff,0x6bf4d3ff800000000),(158,0x1fffffffffffffffff,0x6bf4d3ff800000000),(161,0x1fffffffffffffffff,0x6bf4d3ff800000000),(162,0x1fffffffffffffffff,0x6bf4d3ff800000000),(163,0x1fffffffffffffffff,0x6bf4d3ff800000000),(164,0x1fffffffffffffffff,0x6bf4d3ff800000000),(165,0x1fffffffffffffffff,0x6bf4d3ff800000000),(166,0x1fffffffffffffffff,0x6bf4d3ff800000000),(167,0x1fffffffffffffffff,0x6bf4d3ff800000000),(168,0x1fffffffffffffffff,0x6bf4d3ff800000000),(169,0x1fffffffffffffffff,0x6bf4d3ff800000000),(170,0x1fffffffffffffffff,0x6bf4d3ff800000000),(171,0x1fffffffffffffffff,0x6bf4d3ff800000000),(172,0x1fffffffffffffffff,0x6bf4d3ff800000000),(173,0x1fffffffffffffffff,0x6bf4d3ff800000000),(174,0x1fffffffffffffffff,0x6bf4d3ff800000000),(175,0x1fffffffffffffffff,0x6bf4d3ff800000000),(176,0x1fffffffffffffffff,0x6bf4d3ff800000000),(177,0x1fffffffffffffffff,0x6bf4d3ff800000000),(178,0x1fffffffffffffffff,0x6bf4d3ff800000000),(179,0x1fffffffffffffffff,0x6bf4d3ff800000000),(180,0x1fffffffffffffffff,0x6bf4d3ff800000000),(181,0x1fffffffffffffffff,0x6bf4d3ff800000000),(182,0x1fffffffffffffffff,0x6bf4d3ff800000000),(183,0x1fffffffffffffffff,0x6bf4d3ff800000000),(184,0x1fffffffffffffffff,0x6bf4d3ff800000000),(185,0x1fffffffffffffffff,0x6bf4d3ff800000000),(186,0x1fffffffffffffffff,0x6bf4d3ff800000000),(187,0x1fffffffffffffffff,0x6bf4d3ff800000000),(188,0x1fffffffffffffffff,0x6bf4d3ff800000000),(189,0x1fffffffffffffffff,0x6bf4d3ff800000000),(203,0x1fffffffffffffffff,0x8004000000000000)]
  .l)) [] (.n (.n (.n .l [] .l) [] .l) [] (.n .l
  [(130,0x1ffcffffffffffffff,0x73f493ff800000020),(131,0x1ffcffffffffffffff,0x73f483ff800000020),(155,0x1ffcffffffffffffff,0x73f493ff800000020),(158,0x1ffcffffffffffffff,0x73f493ff800000020),(161,0x1ffcffffffffffffff,0x73f493ff800000020),(162,0x1ffcffffffffffffff,0x73f493ff800000020),(163,0x1ffcffffffffffffff,0x73f493ff800000020),(164,0x1ffcffffffffffffff,0x73f493ff800000020),(165,0x1ffcffffffffffffff,0x73f493ff800000020),(166,0x1ffcffffffffffffff,0x73f493ff800000020),(167,0x1ffcffffffffffffff,0x73f493ff800000020),(168,0x1ffcffffffffffffff,0x73f493ff800000020),(169,0x1ffcffffffffffffff,0x73f493ff800000020),(170,0x1ffcffffffffffffff,0x73f493ff800000020),(171,0x1ffcffffffffffffff,0x73f493ff800000020),(172,0x1ffcffffffffffffff,0x73f493ff800000020),(173,0x1ffcffffffffffffff,0x73f493ff800000020),(174,0x1ffcffffffffffffff,0x73f493ff800000020),(175,0x1ffcffffffffffffff,0x73f493ff800000020),(176,0x1ffcffffffffffffff,0x73f493ff800000020),(177,0x1ffcffffffffffffff,0x73f493ff800000020),(178,0x1ffcffffffffffffff,0x73f493ff800000020),(179,0x1ffcffffffffffffff,0x73f493ff800000020),(180,0x1ffcffffffffffffff,0x73f493ff800000020),(182,0x1ffcffffffffffffff,0x73f493ff800000020),(183,0x1ffcffffffffffffff,0x73f493ff800000020),(184,0x1ffcffffffffffffff,0x73f493ff800000020),(185,0x1ffcffffffffffffff,0x73f493ff800000020),(186,0x1ffcffffffffffffff,0x73f493ff800000020),(187,0x1ffcffffffffffffff,0x73f493ff800000020),(188,0x1ffcffffffffffffff,0x73f493ff800000020),(189,0x1ffcffffffffffffff,0x73f493ff800000020)]
  .l))) [(133,0x1fffffffffffffffff,0x1000008000929f6020)] (.n (.n (.n (.n .l [] .l)
  [(130,0x1fffffffffffffffff,0x163f49bff8929f6020),(131,0x1fffffffffffffffff,0x163f48bff8929f6020),(136,0x1fffffffffffffffff,0x1000008000929f6020),(148,0x1fffffffffffffffff,0x1000008000929f6020),(154,0x1fffffffffffffffff,0x163f49bff8929f6020),(155,0x1fffffffffffffffff,0x163f49bff8929f6020),(158,0x1fffffffffffffffff,0x163f49bff8929f6020),(161,0x1fffffffffffffffff,0x163f49bff8929f6020),(162,0x1fffffffffffffffff,0x163f49bff8929f6020),(163,0x1fffffffffffffffff,0x163f49bff8929f6020),(164,0x1fffffffffffffffff,0x163f49bff8929f6020),(165,0x1fffffffffffffffff,0x163f49bff8929f6020),(166,0x1fffffffffffffffff,0x163f49bff8929f6020),(167,0x1fffffffffffffffff,0x163f49bff8929f6020),(168,0x1fffffffffffffffff,0x163f49bff8929f6020),(169,0x1fffffffffffffffff,0x163f49bff8929f6020),(170,0x1fffffffffffffffff,0x163f49bff8929f6020),(171,0x1fffffffffffffffff,0x163f49bff8929f6020),(172,0x1fffffffffffffffff,0x163f49bff8929f6020),(173,0x1fffffffffffffffff,0x163f49bff8929f6020),(174,0x1fffffffffffffffff,0x163f49bff8929f6020),(175,0x1fffffffffffffffff,0x163f49bff8929f6020),(176,0x1fffffffffffffffff,0x163f49bff8929f6020),(177,0x1fffffffffffffffff,0x163f49bff8929f6020),(178,0x1fffffffffffffffff,0x163f49bff8929f6020),(179,0x1fffffffffffffffff,0x163f49bff8929f6020),(180,0x1fffffffffffffffff,0x163f49bff8929f6020),(181,0x1fffffffffffffffff,0x163f49bff8929f6020),(182,0x1fffffffffffffffff,0x163f49bff8929f6020),(183,0x1fffffffffffffffff,0x163f49bff8929f6020),(184,0x1fffffffffffffffff,0x163f49bff8929f6020),(185,0x1fffffffffffffffff,0x163f49bff8929f6020),(186,0x1fffffffffffffffff,0x163f49bff8929f6020),(187,0x1fffffffffffffffff,0x163f49bff8929f6020),(188,0x1fffffffffffffffff,0x163f49bff8929f6020),(189,0x1fffffffffffffffff,0x163f49bff8929f6020)]
  .l) [] (.n .l [] .l)) [] (.n (.n (.n .l [] .l) [] .l)
  [(149,0x1fffffffffffffffff,0x2000000000000),(150,0x1fffffffffffffffff,0x2000000000000),(151,0x1fffffffffffffffff,0x2000000000000)]
  (.n .l
  [(130,0x1fffffffffffffffff,0x6bf4d3ff800000000),(131,0x1fffffffffffffffff,0x6bf4c3ff800000000),(154,0x1fffffffffffffffff,0x6bf4d3ff800000000),(155,0x1fffffffffffffffff,0x6bf4d3ff800000000),(158,0x1fffffffffffffffff,0x6bf4d3ff800000000),(161,0x1fffffffffffffffff,0x6bf4d3ff800000000),(162,0x1fffffffffffffffff,0x6bf4d3ff800000000),(163,0x1fffffffffffffffff,0x6bf4d3ff800000000),(164,0x1fffffffffffffffff,0x6bf4d3ff800000000),(165,0x1fffffffffffffffff,0x6bf4d3ff800000000),(166,0x1fffffffffffffffff,0x6bf4d3ff800000000),(167,0x1fffffffffffffffff,0x6bf4d3ff800000000),(168,0x1fffffffffffffffff,0x6bf4d3ff800000000),(169,0x1fffffffffffffffff,0x6bf4d3ff800000000),(170,0x1fffffffffffffffff,0x6bf4d3ff800000000),(171,0x1fffffffffffffffff,0x6bf4d3ff800000000),(172,0x1fffffffffffffffff,0x6bf4d3ff800000000),(173,0x1fffffffffffffffff,0x6bf4d3ff800000000),(174,0x1fffffffffffffffff,0x6bf4d3ff800000000),(175,0x1fffffffffffffffff,0x6bf4d3ff800000000),(176,0x1fffffffffffffffff,0x6bf4d3ff800000000),(177,0x1fffffffffffffffff,0x6bf4d3ff800000000),(178,0x1fffffffffffffffff,0x6bf4d3ff800000000),(179,0x1fffffffffffffffff,0x6bf4d3ff800000000),(180,0x1fffffffffffffffff,0x6bf4d3ff800000000),(181,0x1fffffffffffffffff,0x6bf4d3ff800000000),(182,0x1fffffffffffffffff,0x6bf4d3ff800000000),(183,0x1fffffffffffffffff,0x6bf4d3ff800000000),(184,0x1fffffffffffffffff,0x6bf4d3ff800000000),(185,0x1fffffffffffffffff,0x6bf4d3ff800000000),(186,0x1fffffffffffffffff,0x6bf4d3ff800000000),(187,0x1fffffffffffffffff,0x6bf4d3ff800000000),(188,0x1fffffffffffffffff,0x6bf4d3ff800000000),(189,0x1fffffffffffffffff,0x6bf4d3ff800000000)]
  .l)))) [] (.n (.n (.n (.n (.n .l [] .l) [] .l) [] (.n .l
  [(193,0x1fffffffffffffffff,0x103a100000c200c3e)] .l)) [] (.n (.n (.n .l [] .l)
  [(130,0x1fffffffffffffffff,0x7bfed3ff80c200c3e),(131,0x1fffffffffffffffff,0x7bfed3ff80c200c3e),(154,0x1fffffffffffffffff,0x7bfed3ff80c200c3e),(155,0x1fffffffffffffffff,0x7bfed3ff80c200c3e),(158,0x1fffffffffffffffff,0x7bfed3ff80c200c3e),(161,0x1fffffffffffffffff,0x7bfed3ff80c200c3e),(162,0x1fffffffffffffffff,0x7bfed3ff80c200c3e),(163,0x1fffffffffffffffff,0x7bfed3ff80c200c3e),(164,0x1fffffffffffffffff,0x7bfed3ff80c200c3e),(165,0x1fffffffffffffffff,0x7bfed3ff80c200c3e),(166,0x1fffffffffffffffff,0x7bfed3ff80c200c3e),(167,0x1fffffffffffffffff,0x7bfed3ff80c200c3e),(168,0x1fffffffffffffffff,0x7bfed3ff80c200c3e),(169,0x1fffffffffffffffff,0x7bfed3ff80c200c3e),(170,0x1fffffffffffffffff,0x7bfed3ff80c200c3e),(171,0x1fffffffffffffffff,0x7bfed3ff80c200c3e),(172,0x1fffffffffffffffff,0x7bfed3ff80c200c3e),(173,0x1fffffffffffffffff,0x7bfed3ff80c200c3e),(174,0x1fffffffffffffffff,0x7bfed3ff80c200c3e),(175,0x1fffffffffffffffff,0x7bfed3ff80c200c3e),(176,0x1fffffffffffffffff,0x7bfed3ff80c200c3e),(177,0x1fffffffffffffffff,0x7bfed3ff80c200c3e),(178,0x1fffffffffffffffff,0x7bfed3ff80c200c3e),(179,0x1fffffffffffffffff,0x7bfed3ff80c200c3e),(180,0x1fffffffffffffffff,0x7bfed3ff80c200c3e),(181,0x1fffffffffffffffff,0x7bfed3ff80c200c3e),(182,0x1fffffffffffffffff,0x7bfed3ff80c200c3e),(183,0x1fffffffffffffffff,0x7bfed3ff80c200c3e),(184,0x1fffffffffffffffff,0x7bfed3ff80c200c3e),(185,0x1fffffffffffffffff,0x7bfed3ff80c200c3e),(186,0x1fffffffffffffffff,0x7bfed3ff80c200c3e),(187,0x1fffffffffffffffff,0x7bfed3ff80c200c3e),(188,0x1fffffffffffffffff,0x7bfed3ff80c200c3e),(189,0x1fffffffffffffffff,0x7bfed3ff80c200c3e)]
  .l)
  [(130,0x1fffffffffffffffff,0x1fffefbff89ebf6c7e),(131,0x1fffffffffffffffff,0x1fffefbff89ebf6c7e),(154,0x1fffffffffffffffff,0x1fffefbff89ebf6c7e),(155,0x1fffffffffffffffff,0x1fffefbff89ebf6c7e),(158,0x1fffffffffffffffff,0x1fffefbff89ebf6c7e),(161,0x1fffffffffffffffff,0x1fffefbff89ebf6c7e),(162,0x1fffffffffffffffff,0x1fffefbff89ebf6c7e),(163,0x1fffffffffffffffff,0x1fffefbff89ebf6c7e),(164,0x1fffffffffffffffff,0x1fffefbff89ebf6c7e),(165,0x1fffffffffffffffff,0x1fffefbff89ebf6c7e),(166,0x1fffffffffffffffff,0x1fffefbff89ebf6c7e),(167,0x1fffffffffffffffff,0x1fffefbff89ebf6c7e),(168,0x1fffffffffffffffff,0x1fffefbff89ebf6c7e),(169,0x1fffffffffffffffff,0x1fffefbff89ebf6c7e),(170,0x1fffffffffffffffff,0x1fffefbff89ebf6c7e),(171,0x1fffffffffffffffff,0x1fffefbff89ebf6c7e),(172,0x1fffffffffffffffff,0x1fffefbff89ebf6c7e),(173,0x1fffffffffffffffff,0x1fffefbff89ebf6c7e),(174,0x1fffffffffffffffff,0x1fffefbff89ebf6c7e),(175,0x1fffffffffffffffff,0x1fffefbff89ebf6c7e),(176,0x1fffffffffffffffff,0x1fffefbff89ebf6c7e),(177,0x1fffffffffffffffff,0x1fffefbff89ebf6c7e),(178,0x1fffffffffffffffff,0x1fffefbff89ebf6c7e),(179,0x1fffffffffffffffff,0x1fffefbff89ebf6c7e),(180,0x1fffffffffffffffff,0x1fffefbff89ebf6c7e),(181,0x1fffffffffffffffff,0x1fffefbff89ebf6c7e),(182,0x1fffffffffffffffff,0x1fffefbff89ebf6c7e),(183,0x1fffffffffffffffff,0x1fffefbff89ebf6c7e),(184,0x1fffffffffffffffff,0x1fffefbff89ebf6c7e),(185,0x1fffffffffffffffff,0x1fffefbff89ebf6c7e),(186,0x1fffffffffffffffff,0x1fffefbff89ebf6c7e),(187,0x1fffffffffffffffff,0x1fffefbff89ebf6c7e),(188,0x1fffffffffffffffff,0x1fffefbff89ebf6c7e),(189,0x1fffffffffffffffff,0x1fffefbff89ebf6c7e)]
  (.n .l [] .l))) [] (.n (.n (.n (.n .l [] .l)
  [(130,0x1fffffffffffffffff,0x1fffefbff89ebf6c7e),(131,0x1fffffffffffffffff,0x1fffefbff89ebf6c7e),(154,0x1fffffffffffffffff,0x1fffefbff89ebf6c7e),(155,0x1fffffffffffffffff,0x1fffefbff89ebf6c7e),(158,0x1fffffffffffffffff,0x1fffefbff89ebf6c7e),(161,0x1fffffffffffffffff,0x1fffefbff89ebf6c7e),(162,0x1fffffffffffffffff,0x1fffefbff89ebf6c7e),(163,0x1fffffffffffffffff,0x1fffefbff89ebf6c7e),(164,0x1fffffffffffffffff,0x1fffefbff89ebf6c7e),(165,0x1fffffffffffffffff,0x1fffefbff89ebf6c7e),(166,0x1fffffffffffffffff,0x1fffefbff89ebf6c7e),(167,0x1fffffffffffffffff,0x1fffefbff89ebf6c7e),(168,0x1fffffffffffffffff,0x1fffefbff89ebf6c7e),(169,0x1fffffffffffffffff,0x1fffefbff89ebf6c7e),(170,0x1fffffffffffffffff,0x1fffefbff89ebf6c7e),(171,0x1fffffffffffffffff,0x1fffefbff89ebf6c7e),(172,0x1fffffffffffffffff,0x1fffefbff89ebf6c7e),(173,0x1fffffffffffffffff,0x1fffefbff89ebf6c7e),(174,0x1fffffffffffffffff,0x1fffefbff89ebf6c7e),(175,0x1fffffffffffffffff,0x1fffefbff89ebf6c7e),(176,0x1fffffffffffffffff,0x1fffefbff89ebf6c7e),(177,0x1fffffffffffffffff,0x1fffefbff89ebf6c7e),(178,0x1fffffffffffffffff,0x1fffefbff89ebf6c7e),(179,0x1fffffffffffffffff,0x1fffefbff89ebf6c7e),(180,0x1fffffffffffffffff,0x1fffefbff89ebf6c7e),(181,0x1fffffffffffffffff,0x1fffefbff89ebf6c7e),(182,0x1fffffffffffffffff,0x1fffefbff89ebf6c7e),(183,0x1fffffffffffffffff,0x1fffefbff89ebf6c7e),(184,0x1fffffffffffffffff,0x1fffefbff89ebf6c7e),(185,0x1fffffffffffffffff,0x1fffefbff89ebf6c7e),(186,0x1fffffffffffffffff,0x1fffefbff89ebf6c7e),(187,0x1fffffffffffffffff,0x1fffefbff89ebf6c7e),(188,0x1fffffffffffffffff,0x1fffefbff89ebf6c7e),(189,0x1fffffffffffffffff,0x1fffefbff89ebf6c7e)]
  .l) [] (.n .l [] .l)) [] (.n (.n .l [(193,0x1fffffffffffffffff,0x4000000000020074)] .l) [] (.n
  .l [] .l)))))) [] (.n (.n (.n (.n (.n (.n (.n .l [] .l) [] .l) [] (.n .l [] .l))
  [(144,0x1fffffffffffffffff,0x18a1148008929f6020),(195,0x1fffffffffffffffff,0x18a1148008929f6020)]
  (.n (.n (.n .l [] .l) [] .l)
  [(137,0x1fffffffffffffffff,0x1000008000929f6020),(148,0x1fffffffffffffffff,0x1000008000929f6020),(152,0x1fffffffffffffffff,0x1000008000929f6020),(155,0x1fffffffffffffffff,0x1000008000929f6020)]
  (.n .l [] .l))) [] (.n (.n (.n (.n .l [] .l)
  [(130,0x1fffffffffffffffff,0x163f49bff8929f6020),(131,0x1fffffffffffffffff,0x163f48bff8929f6020),(154,0x1fffffffffffffffff,0x163f49bff8929f6020),(155,0x1fffffffffffffffff,0x163f49bff8929f6020),(158,0x1fffffffffffffffff,0x163f49bff8929f6020),(161,0x1fffffffffffffffff,0x163f49bff8929f6020),(162,0x1fffffffffffffffff,0x163f49bff8929f6020),(163,0x1fffffffffffffffff,0x163f49bff8929f6020),(164,0x1fffffffffffffffff,0x163f49bff8929f6020),(165,0x1fffffffffffffffff,0x163f49bff8929f6020),(166,0x1fffffffffffffffff,0x163f49bff8929f6020),(167,0x1fffffffffffffffff,0x163f49bff8929f6020),(168,0x1fffffffffffffffff,0x163f49bff8929f6020),(169,0x1fffffffffffffffff,0x163f49bff8929f6020),(170,0x1fffffffffffffffff,0x163f49bff8929f6020),(171,0x1fffffffffffffffff,0x163f49bff8929f6020),(172,0x1fffffffffffffffff,0x163f49bff8929f6020),(173,0x1fffffffffffffffff,0x163f49bff8929f6020),(174,0x1fffffffffffffffff,0x163f49bff8929f6020),(175,0x1fffffffffffffffff,0x163f49bff8929f6020),(176,0x1fffffffffffffffff,0x163f49bff8929f6020),(177,0x1fffffffffffffffff,0x163f49bff8929f6020),(178,0x1fffffffffffffffff,0x163f49bff8929f6020),(179,0x1fffffffffffffffff,0x163f49bff8929f6020),(180,0x1fffffffffffffffff,0x163f49bff8929f6020),(181,0x1fffffffffffffffff,0x163f49bff8929f6020),(182,0x1fffffffffffffffff,0x163f49bff8929f6020),(183,0x1fffffffffffffffff,0x163f49bff8929f6020),(184,0x1fffffffffffffffff,0x163f49bff8929f6020),(185,0x1fffffffffffffffff,0x163f49bff8929f6020),(186,0x1fffffffffffffffff,0x163f49bff8929f6020),(187,0x1fffffffffffffffff,0x163f49bff8929f6020),(188,0x1fffffffffffffffff,0x163f49bff8929f6020),(189,0x1fffffffffffffffff,0x163f49bff8929f6020)]
  .l)
  [(130,0x1fffffffffffffffff,0x73fed3ff80c200c3e),(131,0x1fffffffffffffffff,0x73fed3ff80c200c3e),(154,0x1fffffffffffffffff,0x73fed3ff80c200c3e),(155,0x1fffffffffffffffff,0x73fed3ff80c200c3e),(158,0x1fffffffffffffffff,0x73fed3ff80c200c3e),(161,0x1fffffffffffffffff,0x73fed3ff80c200c3e),(162,0x1fffffffffffffffff,0x73fed3ff80c200c3e),(163,0x1fffffffffffffffff,0x73fed3ff80c200c3e),(164,0x1fffffffffffffffff,0x73fed3ff80c200c3e),(165,0x1fffffffffffffffff,0x73fed3ff80c200c3e),(166,0x1fffffffffffffffff,0x73fed3ff80c200c3e),(167,0x1fffffffffffffffff,0x73fed3ff80c200c3e),(168,0x1fffffffffffffffff,0x73fed3ff80c200c3e),(169,0x1fffffffffffffffff,0x73fed3ff80c200c3e),(170,0x1fffffffffffffffff,0x73fed3ff80c200c3e),(171,0x1fffffffffffffffff,0x73fed3ff80c200c3e),(172,0x1fffffffffffffffff,0x73fed3ff80c200c3e),(173,0x1fffffffffffffffff,0x73fed3ff80c200c3e),(174,0x1fffffffffffffffff,0x73fed3ff80c200c3e),(175,0x1fffffffffffffffff,0x73fed3ff80c200c3e),(176,0x1fffffffffffffffff,0x73fed3ff80c200c3e),(177,0x1fffffffffffffffff,0x73fed3ff80c200c3e),(178,0x1fffffffffffffffff,0x73fed3ff80c200c3e),(179,0x1fffffffffffffffff,0x73fed3ff80c200c3e),(180,0x1fffffffffffffffff,0x73fed3ff80c200c3e),(181,0x1fffffffffffffffff,0x73fed3ff80c200c3e),(182,0x1fffffffffffffffff,0x73fed3ff80c200c3e),(183,0x1fffffffffffffffff,0x73fed3ff80c200c3e),(184,0x1fffffffffffffffff,0x73fed3ff80c200c3e),(185,0x1fffffffffffffffff,0x73fed3ff80c200c3e),(186,0x1fffffffffffffffff,0x73fed3ff80c200c3e),(187,0x1fffffffffffffffff,0x73fed3ff80c200c3e),(188,0x1fffffffffffffffff,0x73fed3ff80c200c3e),(189,0x1fffffffffffffffff,0x73fed3ff80c200c3e),(193,0x1fffffffffffffffff,0x103a100000c200c3e),(198,0x1fffffffffffffffff,0x103a100000c200c1e)]
  (.n .l [] .l)) [] (.n (.n (.n .l [] .l)
  [(130,0x1fffffffffffffffff,0x6bf4d3ff800000020),(131,0x1fffffffffffffffff,0x6bf4c3ff800000020),(154,0x1fffffffffffffffff,0x6bf4d3ff800000020),(155,0x1fffffffffffffffff,0x6bf4d3ff800000020),(158,0x1fffffffffffffffff,0x6bf4d3ff800000020),(161,0x1fffffffffffffffff,0x6bf4d3ff800000020),(162,0x1fffffffffffffffff,0x6bf4d3ff800000020),(163,0x1fffffffffffffffff,0x6bf4d3ff800000020),(164,0x1fffffffffffffffff,0x6bf4d3ff800000020),(165,0x1fffffffffffffffff,0x6bf4d3ff800000020),(166,0x1fffffffffffffffff,0x6bf4d3ff800000020),(167,0x1fffffffffffffffff,0x6bf4d3ff800000020),(168,0x1fffffffffffffffff,0x6bf4d3ff800000020),(169,0x1fffffffffffffffff,0x6bf4d3ff800000020),(170,0x1fffffffffffffffff,0x6bf4d3ff800000020),(171,0x1fffffffffffffffff,0x6bf4d3ff800000020),(172,0x1fffffffffffffffff,0x6bf4d3ff800000020),(173,0x1fffffffffffffffff,0x6bf4d3ff800000020),(174,0x1fffffffffffffffff,0x6bf4d3ff800000020),(175,0x1fffffffffffffffff,0x6bf4d3ff800000020),(176,0x1fffffffffffffffff,0x6bf4d3ff800000020),(177,0x1fffffffffffffffff,0x6bf4d3ff800000020),(178,0x1fffffffffffffffff,0x6bf4d3ff800000020),(179,0x1fffffffffffffffff,0x6bf4d3ff800000020),(180,0x1fffffffffffffffff,0x6bf4d3ff800000020),(181,0x1fffffffffffffffff,0x6bf4d3ff800000020),(182,0x1fffffffffffffffff,0x6bf4d3ff800000020),(183,0x1fffffffffffffffff,0x6bf4d3ff800000020),(184,0x1fffffffffffffffff,0x6bf4d3ff800000020),(185,0x1fffffffffffffffff,0x6bf4d3ff800000020),(186,0x1fffffffffffffffff,0x6bf4d3ff800000020),(187,0x1fffffffffffffffff,0x6bf4d3ff800000020),(188,0x1fffffffffffffffff,0x6bf4d3ff800000020),(189,0x1fffffffffffffffff,0x6bf4d3ff800000020)]
  .l) [] (.n .l [(193,0x1fffffffffffffffff,0x4000000000020074)] .l)))) [] (.n (.n (.n (.n (.n .l
  [] .l) [] .l) [] (.n .l
  [(130,0x1fffffffffffffffff,0x73fe93ff80c200c3e),(131,0x1fffffffffffffffff,0x73fe93ff80c200c3e),(154,0x1fffffffffffffffff,0x73fe93ff80c200c3e),(155,0x1fffffffffffffffff,0x73fe93ff80c200c3e),(158,0x1fffffffffffffffff,0x73fe93ff80c200c3e),(161,0x1fffffffffffffffff,0x73fe93ff80c200c3e),(162,0x1fffffffffffffffff,0x73fe93ff80c200c3e),(163,0x1fffffffffffffffff,0x73fe93ff80c200c3e),(164,0x1fffffffffffffffff,0x73fe93ff80c200c3e),(165,0x1fffffffffffffffff,0x73fe93ff80c200c3e),(166,0x1fffffffffffffffff,0x73fe93ff80c200c3e),(167,0x1fffffffffffffffff,0x73fe93ff80c200c3e),(168,0x1fffffffffffffffff,0x73fe93ff80c200c3e),(169,0x1fffffffffffffffff,0x73fe93ff80c200c3e),(170,0x1fffffffffffffffff,0x73fe93ff80c200c3e),(171,0x1fffffffffffffffff,0x73fe93ff80c200c3e),(172,0x1fffffffffffffffff,0x73fe93ff80c200c3e),(173,0x1fffffffffffffffff,0x73fe93ff80c200c3e),(174,0x1fffffffffffffffff,0x73fe93ff80c200c3e),(175,0x1fffffffffffffffff,0x73fe93ff80c200c3e),(176,0x1fffffffffffffffff,0x73fe93ff80c200c3e),(177,0x1fffffffffffffffff,0x73fe93ff80c200c3e),(178,0x1fffffffffffffffff,0x73fe93ff80c200c3e),(179,0x1fffffffffffffffff,0x73fe93ff80c200c3e),(180,0x1fffffffffffffffff,0x73fe93ff80c200c3e),(181,0x1fffffffffffffffff,0x73fe93ff80c200c3e),(182,0x1fffffffffffffffff,0x73fe93ff80c200c3e),(183,0x1fffffffffffffffff,0x73fe93ff80c200c3e),(184,0x1fffffffffffffffff,0x73fe93ff80c200c3e),(185,0x1fffffffffffffffff,0x73fe93ff80c200c3e),(186,0x1fffffffffffffffff,0x73fe93ff80c200c3e),(187,0x1fffffffffffffffff,0x73fe93ff80c200c3e),(188,0x1fffffffffffffffff,0x73fe93ff80c200c3e),(189,0x1fffffffffffffffff,0x73fe93ff80c200c3e)]
  .l)) [(147,0x1fffffffffffffffff,0x4004000000000000)] (.n (.n (.n .l [] .l)
  [(193,0x1fffffffffffffffff,0x103a100000c200c3e),(197,0x1fffffffffffffffff,0x103a500000c200c3e)]
  .l)
  [(130,0x1fffffffffffffffff,0x1fffefbff89ebf6c7e),(131,0x1fffffffffffffffff,0x1fffefbff89ebf6c7e),(154,0x1fffffffffffffffff,0x1fffefbff89ebf6c7e),(155,0x1fffffffffffffffff,0x1fffefbff89ebf6c7e),(158,0x1fffffffffffffffff,0x1fffefbff89ebf6c7e),(161,0x1fffffffffffffffff,0x1fffefbff89ebf6c7e),(162,0x1fffffffffffffffff,0x1fffefbff89ebf6c7e),(163,0x1fffffffffffffffff,0x1fffefbff89ebf6c7e),(164,0x1fffffffffffffffff,0x1fffefbff89ebf6c7e),(165,0x1fffffffffffffffff,0x1fffefbff89ebf6c7e),(166,0x1fffffffffffffffff,0x1fffefbff89ebf6c7e),(167,0x1fffffffffffffffff,0x1fffefbff89ebf6c7e),(168,0x1fffffffffffffffff,0x1fffefbff89ebf6c7e),(169,0x1fffffffffffffffff,0x1fffefbff89ebf6c7e),(170,0x1fffffffffffffffff,0x1fffefbff89ebf6c7e),(171,0x1fffffffffffffffff,0x1fffefbff89ebf6c7e),(172,0x1fffffffffffffffff,0x1fffefbff89ebf6c7e),(173,0x1fffffffffffffffff,0x1fffefbff89ebf6c7e),(174,0x1fffffffffffffffff,0x1fffefbff89ebf6c7e),(175,0x1fffffffffffffffff,0x1fffefbff89ebf6c7e),(176,0x1fffffffffffffffff,0x1fffefbff89ebf6c7e),(177,0x1fffffffffffffffff,0x1fffefbff89ebf6c7e),(178,0x1fffffffffffffffff,0x1fffefbff89ebf6c7e),(179,0x1fffffffffffffffff,0x1fffefbff89ebf6c7e),(180,0x1fffffffffffffffff,0x1fffefbff89ebf6c7e),(181,0x1fffffffffffffffff,0x1fffefbff89ebf6c7e),(182,0x1fffffffffffffffff,0x1fffefbff89ebf6c7e),(183,0x1fffffffffffffffff,0x1fffefbff89ebf6c7e),(184,0x1fffffffffffffffff,0x1fffefbff89ebf6c7e),(185,0x1fffffffffffffffff,0x1fffefbff89ebf6c7e),(186,0x1fffffffffffffffff,0x1fffefbff89ebf6c7e),(187,0x1fffffffffffffffff,0x1fffefbff89ebf6c7e),(188,0x1fffffffffffffffff,0x1fffefbff89ebf6c7e),(189,0x1fffffffffffffffff,0x1fffefbff89ebf6c7e)]
  (.n .l [] .l))) [] (.n (.n (.n (.n .l [] .l) [] .l) [] (.n .l [] .l)) [] (.n (.n .l [] .l)
  [(202,0x1fffffffffffffffff,0x8004000000000020)] (.n .l [] .l))))) [] (.n (.n (.n (.n (.n (.n .l
  [(193,0x1fffffffffffffffff,0x4000000000020074)] .l)
  [(192,0x1fffffffffffffffff,0x8004000000000000)] .l) [] (.n .l
  [(130,0x1fffffffffffffffff,0x1fffefbff89ebf6c7e),(131,0x1fffffffffffffffff,0x1fffefbff89ebf6c7e),(154,0x1fffffffffffffffff,0x1fffefbff89ebf6c7e),(155,0x1fffffffffffffffff,0x1fffefbff89ebf6c7e),(158,0x1fffffffffffffffff,0x1fffefbff89ebf6c7e),(161,0x1fffffffffffffffff,0x1fffefbff89ebf6c7e),(162,0x1fffffffffffffffff,0x1fffefbff89ebf6c7e),(163,0x1fffffffffffffffff,0x1fffefbff89ebf6c7e),(164,0x1fffffffffffffffff,0x1fffefbff89ebf6c7e),(165,0x1fffffffffffffffff,0x1fffefbff89ebf6c7e),(166,0x1fffffffffffffffff,0x1fffefbff89ebf6c7e),(167,0x1fffffffffffffffff,0x1fffefbff89ebf6c7e),(168,0x1fffffffffffffffff,0x1fffefbff89ebf6c7e),(169,0x1fffffffffffffffff,0x1fffefbff89ebf6c7e),(170,0x1fffffffffffffffff,0x1fffefbff89ebf6c7e),(171,0x1fffffffffffffffff,0x1fffefbff89ebf6c7e),(172,0x1fffffffffffffffff,0x1fffefbff89ebf6c7e),(173,0x1fffffffffffffffff,0x1fffefbff89ebf6c7e),(174,0x1fffffffffffffffff,0x1fffefbff89ebf6c7e),(175,0x1fffffffffffffffff,0x1fffefbff89ebf6c7e),(176,0x1fffffffffffffffff,0x1fffefbff89ebf6c7e),(177,0x1fffffffffffffffff,0x1fffefbff89ebf6c7e),(178,0x1fffffffffffffffff,0x1fffefbff89ebf6c7e),(179,0x1fffffffffffffffff,0x1fffefbff89ebf6c7e),(180,0x1fffffffffffffffff,0x1fffefbff89ebf6c7e),(181,0x1fffffffffffffffff,0x1fffefbff89ebf6c7e),(182,0x1fffffffffffffffff,0x1fffefbff89ebf6c7e),(183,0x1fffffffffffffffff,0x1fffefbff89ebf6c7e),(184,0x1fffffffffffffffff,0x1fffefbff89ebf6c7e),(185,0x1fffffffffffffffff,0x1fffefbff89ebf6c7e),(186,0x1fffffffffffffffff,0x1fffefbff89ebf6c7e),(187,0x1fffffffffffffffff,0x1fffefbff89ebf6c7e),(188,0x1fffffffffffffffff,0x1fffefbff89ebf6c7e),(189,0x1fffffffffffffffff,0x1fffefbff89ebf6c7e)]
  .l)) [] (.n (.n (.n .l [] .l)
  [(149,0x1fffffffffffffffff,0x2000000000000),(150,0x1fffffffffffffffff,0x2000000000000),(151,0x1fffffffffffffffff,0x2000000000000)]
  .l) [] (.n .l [] .l))) [(145,0x1fffffffffffffffff,0x10000000008000)] (.n (.n (.n (.n .l [] .l)
  [] .l) [] (.n .l [] .l)) [] (.n (.n (.n .l [] .l) [] .l) [] (.n .l
  [(130,0x1ffcffffffffffffff,0x73f493ff800000020),(131,0x1ffcffffffffffffff,0x73f483ff800000020),(155,0x1ffcffffffffffffff,0x73f493ff800000020),(158,0x1ffcffffffffffffff,0x73f493ff800000020),(161,0x1ffcffffffffffffff,0x73f493ff800000020),(162,0x1ffcffffffffffffff,0x73f493ff800000020),(163,0x1ffcffffffffffffff,0x73f493ff800000020),(164,0x1ffcffffffffffffff,0x73f493ff800000020),(165,0x1ffcffffffffffffff,0x73f493ff800000020),(166,0x1ffcffffffffffffff,0x73f493ff800000020),(167,0x1ffcffffffffffffff,0x73f493ff800000020),(168,0x1ffcffffffffffffff,0x73f493ff800000020),(169,0x1ffcffffffffffffff,0x73f493ff800000020),(170,0x1ffcffffffffffffff,0x73f493ff800000020),(171,0x1ffcffffffffffffff,0x73f493ff800000020),(172,0x1ffcffffffffffffff,0x73f493ff800000020),(173,0x1ffcffffffffffffff,0x73f493ff800000020),(174,0x1ffcffffffffffffff,0x73f493ff800000020),(175,0x1ffcffffffffffffff,0x73f493ff800000020),(176,0x1ffcffffffffffffff,0x73f493ff800000020),(177,0x1ffcffffffffffffff,0x73f493ff800000020),(178,0x1ffcffffffffffffff,0x73f493ff800000020),(179,0x1ffcffffffffffffff,0x73f493ff800000020),(180,0x1ffcffffffffffffff,0x73f493ff800000020),(182,0x1ffcffffffffffffff,0x73f493ff800000020),(183,0x1ffcffffffffffffff,0x73f493ff800000020),(184,0x1ffcffffffffffffff,0x73f493ff800000020),(185,0x1ffcffffffffffffff,0x73f493ff800000020),(186,0x1ffcffffffffffffff,0x73f493ff800000020),(187,0x1ffcffffffffffffff,0x73f493ff800000020),(188,0x1ffcffffffffffffff,0x73f493ff800000020),(189,0x1ffcffffffffffffff,0x73f493ff800000020)]
  .l)))) [] (.n (.n (.n (.n (.n .l [] .l)
  [(139,0x1fffffffffffffffff,0x4000000000020074),(153,0x1fffffffffffffffff,0x2000000000000),(156,0x1fffffffffffffffff,0x4004000000020074),(157,0x1fffffffffffffffff,0x2000000000000)]
  .l)
  [(130,0x1fffffffffffffffff,0x1fffefbff89ebf6c7e),(131,0x1fffffffffffffffff,0x1fffefbff89ebf6c7e),(154,0x1fffffffffffffffff,0x1fffefbff89ebf6c7e),(155,0x1fffffffffffffffff,0x1fffefbff89ebf6c7e),(158,0x1fffffffffffffffff,0x1fffefbff89ebf6c7e),(161,0x1fffffffffffffffff,0x1fffefbff89ebf6c7e),(162,0x1fffffffffffffffff,0x1fffefbff89ebf6c7e),(163,0x1fffffffffffffffff,0x1fffefbff89ebf6c7e),(164,0x1fffffffffffffffff,0x1fffefbff89ebf6c7e),(165,0x1fffffffffffffffff,0x1fffefbff89ebf6c7e),(166,0x1fffffffffffffffff,0x1fffefbff89ebf6c7e),(167,0x1fffffffffffffffff,0x1fffefbff89ebf6c7e),(168,0x1fffffffffffffffff,0x1fffefbff89ebf6c7e),(169,0x1fffffffffffffffff,0x1fffefbff89ebf6c7e),(170,0x1fffffffffffffffff,0x1fffefbff89ebf6c7e),(171,0x1fffffffffffffffff,0x1fffefbff89ebf6c7e),(172,0x1fffffffffffffffff,0x1fffefbff89ebf6c7e),(173,0x1fffffffffffffffff,0x1fffefbff89ebf6c7e),(174,0x1fffffffffffffffff,0x1fffefbff89ebf6c7e),(175,0x1fffffffffffffffff,0x1fffefbff89ebf6c7e),(176,0x1fffffffffffffffff,0x1fffefbff89ebf6c7e),(177,0x1fffffffffffffffff,0x1fffefbff89ebf6c7e),(178,0x1fffffffffffffffff,0x1fffefbff89ebf6c7e),(179,0x1fffffffffffffffff,0x1fffefbff89ebf6c7e),(180,0x1fffffffffffffffff,0x1fffefbff89ebf6c7e),(181,0x1fffffffffffffffff,0x1fffefbff89ebf6c7e),(182,0x1fffffffffffffffff,0x1fffefbff89ebf6c7e),(183,0x1fffffffffffffffff,0x1fffefbff89ebf6c7e),(184,0x1fffffffffffffffff,0x1fffefbff89ebf6c7e),(185,0x1fffffffffffffffff,0x1fffefbff89ebf6c7e),(186,0x1fffffffffffffffff,0x1fffefbff89ebf6c7e),(187,0x1fffffffffffffffff,0x1fffefbff89ebf6c7e),(188,0x1fffffffffffffffff,0x1fffefbff89ebf6c7e),(189,0x1fffffffffffffffff,0x1fffefbff89ebf6c7e)]
  (.n .l [] .l)) [] (.n (.n (.n .l [] .l) [] .l)
  [(130,0x1fffffffffffffffff,0x1fffefbff89ebf6c7e),(131,0x1fffffffffffffffff,0x1fffefbff89ebf6c7e),(154,0x1fffffffffffffffff,0x1fffefbff89ebf6c7e),(155,0x1fffffffffffffffff,0x1fffefbff89ebf6c7e),(158,0x1fffffffffffffffff,0x1fffefbff89ebf6c7e),(161,0x1fffffffffffffffff,0x1fffefbff89ebf6c7e),(162,0x1fffffffffffffffff,0x1fffefbff89ebf6c7e),(163,0x1fffffffffffffffff,0x1fffefbff89ebf6c7e),(164,0x1fffffffffffffffff,0x1fffefbff89ebf6c7e),(165,0x1fffffffffffffffff,0x1fffefbff89ebf6c7e),(166,0x1fffffffffffffffff,0x1fffefbff89ebf6c7e),(167,0x1fffffffffffffffff,0x1fffefbff89ebf6c7e),(168,0x1fffffffffffffffff,0x1fffefbff89ebf6c7e),(169,0x1fffffffffffffffff,0x1fffefbff89ebf6c7e),(170,0x1fffffffffffffffff,0x1fffefbff89ebf6c7e),(171,0x1fffffffffffffffff,0x1fffefbff89ebf6c7e),(172,0x1fffffffffffffffff,0x1fffefbff89ebf6c7e),(173,0x1fffffffffffffffff,0x1fffefbff89ebf6c7e),(174,0x1fffffffffffffffff,0x1fffefbff89ebf6c7e),(175,0x1fffffffffffffffff,0x1fffefbff89ebf6c7e),(176,0x1fffffffffffffffff,0x1fffefbff89ebf6c7e),(177,0x1fffffffffffffffff,0x1fffefbff89ebf6c7e),(178,0x1fffffffffffffffff,0x1fffefbff89ebf6c7e),(179,0x1fffffffffffffffff,0x1fffefbff89ebf6c7e),(180,0x1fffffffffffffffff,0x1fffefbff89ebf6c7e),(181,0x1fffffffffffffffff,0x1fffefbff89ebf6c7e),(182,0x1fffffffffffffffff,0x1fffefbff89ebf6c7e),(183,0x1fffffffffffffffff,0x1fffefbff89ebf6c7e),(184,0x1fffffffffffffffff,0x1fffefbff89ebf6c7e),(185,0x1fffffffffffffffff,0x1fffefbff89ebf6c7e),(186,0x1fffffffffffffffff,0x1fffefbff89ebf6c7e),(187,0x1fffffffffffffffff,0x1fffefbff89ebf6c7e),(188,0x1fffffffffffffffff,0x1fffefbff89ebf6c7e),(189,0x1fffffffffffffffff,0x1fffefbff89ebf6c7e)]
  (.n .l [] .l)))
  [(141,0x1fffffffffffffffff,0x1020108000929f6020),(142,0x1fffffffffffffffff,0x1021108000929f6020),(143,0x1fffffffffffffffff,0x1021108000929f6020)]
  (.n (.n (.n (.n .l [] .l) [] .l)
  [(130,0x1fffffffffffffffff,0x163f49bff8929f6020),(131,0x1fffffffffffffffff,0x163f48bff8929f6020),(154,0x1fffffffffffffffff,0x163f49bff8929f6020),(155,0x1fffffffffffffffff,0x163f49bff8929f6020),(158,0x1fffffffffffffffff,0x163f49bff8929f6020),(161,0x1fffffffffffffffff,0x163f49bff8929f6020),(162,0x1fffffffffffffffff,0x163f49bff8929f6020),(163,0x1fffffffffffffffff,0x163f49bff8929f6020),(164,0x1fffffffffffffffff,0x163f49bff8929f6020),(165,0x1fffffffffffffffff,0x163f49bff8929f6020),(166,0x1fffffffffffffffff,0x163f49bff8929f6020),(167,0x1fffffffffffffffff,0x163f49bff8929f6020),(168,0x1fffffffffffffffff,0x163f49bff8929f6020),(169,0x1fffffffffffffffff,0x163f49bff8929f6020),(170,0x1fffffffffffffffff,0x163f49bff8929f6020),(171,0x1fffffffffffffffff,0x163f49bff8929f6020),(172,0x1fffffffffffffffff,0x163f49bff8929f6020),(173,0x1fffffffffffffffff,0x163f49bff8929f6020),(174,0x1fffffffffffffffff,0x163f49bff8929f6020),(175,0x1fffffffffffffffff,0x163f49bff8929f6020),(176,0x1fffffffffffffffff,0x163f49bff8929f6020),(177,0x1fffffffffffffffff,0x163f49bff8929f6020),(178,0x1fffffffffffffffff,0x163f49bff8929f6020),(179,0x1fffffffffffffffff,0x163f49bff8929f6020),(180,0x1fffffffffffffffff,0x163f49bff8929f6020),(181,0x1fffffffffffffffff,0x163f49bff8929f6020),(182,0x1fffffffffffffffff,0x163f49bff8929f6020),(183,0x1fffffffffffffffff,0x163f49bff8929f6020),(184,0x1fffffffffffffffff,0x163f49bff8929f6020),(185,0x1fffffffffffffffff,0x163f49bff8929f6020),(186,0x1fffffffffffffffff,0x163f49bff8929f6020),(187,0x1fffffffffffffffff,0x163f49bff8929f6020),(188,0x1fffffffffffffffff,0x163f49bff8929f6020),(189,0x1fffffffffffffffff,0x163f49bff8929f6020)]
  (.n .l
  [(130,0x1fffffffffffffffff,0x63f4b3ff800000000),(131,0x1fffffffffffffffff,0x63f4a3ff800000000),(154,0x1fffffffffffffffff,0x63f4b3ff800000000),(155,0x1fffffffffffffffff,0x63f4b3ff800000000),(158,0x1fffffffffffffffff,0x63f4b3ff800000000),(161,0x1fffffffffffffffff,0x63f4b3ff800000000),(162,0x1fffffffffffffffff,0x63f4b3ff800000000),(163,0x1fffffffffffffffff,0x63f4b3ff800000000),(164,0x1fffffffffffffffff,0x63f4b3ff800000000),(165,0x1fffffffffffffffff,0x63f4b3ff800000000),(166,0x1fffffffffffffffff,0x63f4b3ff800000000),(167,0x1fffffffffffffffff,0x63f4b3ff800000000),(168,0x1fffffffffffffffff,0x63f4b3ff800000000),(169,0x1fffffffffffffffff,0x63f4b3ff800000000),(170,0x1fffffffffffffffff,0x63f4b3ff800000000),(171,0x1fffffffffffffffff,0x63f4b3ff800000000),(172,0x1fffffffffffffffff,0x63f4b3ff800000000),(173,0x1fffffffffffffffff,0x63f4b3ff800000000),(174,0x1fffffffffffffffff,0x63f4b3ff800000000),(175,0x1fffffffffffffffff,0x63f4b3ff800000000),(176,0x1fffffffffffffffff,0x63f4b3ff800000000),(177,0x1fffffffffffffffff,0x63f4b3ff800000000),(178,0x1fffffffffffffffff,0x63f4b3ff800000000),(179,0x1fffffffffffffffff,0x63f4b3ff800000000),(180,0x1fffffffffffffffff,0x63f4b3ff800000000),(181,0x1fffffffffffffffff,0x63f4b3ff800000000),(182,0x1fffffffffffffffff,0x63f4b3ff800000000),(183,0x1fffffffffffffffff,0x63f4b3ff800000000),(184,0x1fffffffffffffffff,0x63f4b3ff800000000),(185,0x1fffffffffffffffff,0x63f4b3ff800000000),(186,0x1fffffffffffffffff,0x63f4b3ff800000000),(187,0x1fffffffffffffffff,0x63f4b3ff800000000),(188,0x1fffffffffffffffff,0x63f4b3ff800000000),(189,0x1fffffffffffffffff,0x63f4b3ff800000000)]
  .l)) [] (.n (.n .l
  [(153,0x1fffffffffffffffff,0x2000000000000),(156,0x1fffffffffffffffff,0x4004000000020074),(157,0x1fffffffffffffffff,0x2000000000000)]
  .l) [] (.n .l [] .l))))))) [] (.n (.n (.n (.n (.n (.n (.n (.n .l [] .l) [] .l) [] (.n .l [] .l))
  [] (.n (.n (.n .l [] .l) [] .l)
  [(130,0x1fffffffffffffffff,0x163f49bff8929f6020),(131,0x1fffffffffffffffff,0x163f48bff8929f6020),(136,0x1fffffffffffffffff,0x1000008000929f6020),(148,0x1fffffffffffffffff,0x1000008000929f6020),(154,0x1fffffffffffffffff,0x163f49bff8929f6020),(155,0x1fffffffffffffffff,0x163f49bff8929f6020),(158,0x1fffffffffffffffff,0x163f49bff8929f6020),(161,0x1fffffffffffffffff,0x163f49bff8929f6020),(162,0x1fffffffffffffffff,0x163f49bff8929f6020),(163,0x1fffffffffffffffff,0x163f49bff8929f6020),(164,0x1fffffffffffffffff,0x163f49bff8929f6020),(165,0x1fffffffffffffffff,0x163f49bff8929f6020),(166,0x1fffffffffffffffff,0x163f49bff8929f6020),(167,0x1fffffffffffffffff,0x163f49bff8929f6020),(168,0x1fffffffffffffffff,0x163f49bff8929f6020),(169,0x1fffffffffffffffff,0x163f49bff8929f6020),(170,0x1fffffffffffffffff,0x163f49bff8929f6020),(171,0x1fffffffffffffffff,0x163f49bff8929f6020),(172,0x1fffffffffffffffff,0x163f49bff8929f6020),(173,0x1fffffffffffffffff,0x163f49bff8929f6020),(174,0x1fffffffffffffffff,0x163f49bff8929f6020),(175,0x1fffffffffffffffff,0x163f49bff8929f6020),(176,0x1fffffffffffffffff,0x163f49bff8929f6020),(177,0x1fffffffffffffffff,0x163f49bff8929f6020),(178,0x1fffffffffffffffff,0x163f49bff8929f6020),(179,0x1fffffffffffffffff,0x163f49bff8929f6020),(180,0x1fffffffffffffffff,0x163f49bff8929f6020),(181,0x1fffffffffffffffff,0x163f49bff8929f6020),(182,0x1fffffffffffffffff,0x163f49bff8929f6020),(183,0x1fffffffffffffffff,0x163f49bff8929f6020),(184,0x1fffffffffffffffff,0x163f49bff8929f6020),(185,0x1fffffffffffffffff,0x163f49bff8929f6020),(186,0x1fffffffffffffffff,0x163f49bff8929f6020),(187,0x1fffffffffffffffff,0x163f49bff8929f6020),(188,0x1fffffffffffffffff,0x163f49bff8929f6020),(189,0x1fffffffffffffffff,0x163f49bff8929f6020)]
  (.n .l [] .l))) [] (.n (.n (.n (.n .l [] .l)
  [(130,0x1fffffffffffffffff,0x67f4d3ff800020074),(131,0x1fffffffffffffffff,0x67f4c3ff800020074),(148,0x1fffffffffffffffff,0x6004000000020074),(154,0x1fffffffffffffffff,0x67f4d3ff800020074),(155,0x1fffffffffffffffff,0x67f4d3ff800020074),(158,0x1fffffffffffffffff,0x67f4d3ff800020074),(161,0x1fffffffffffffffff,0x67f4d3ff800020074),(162,0x1fffffffffffffffff,0x67f4d3ff800020074),(163,0x1fffffffffffffffff,0x67f4d3ff800020074),(164,0x1fffffffffffffffff,0x67f4d3ff800020074),(165,0x1fffffffffffffffff,0x67f4d3ff800020074),(166,0x1fffffffffffffffff,0x67f4d3ff800020074),(167,0x1fffffffffffffffff,0x67f4d3ff800020074),(168,0x1fffffffffffffffff,0x67f4d3ff800020074),(169,0x1fffffffffffffffff,0x67f4d3ff800020074),(170,0x1fffffffffffffffff,0x67f4d3ff800020074),(171,0x1fffffffffffffffff,0x67f4d3ff800020074),(172,0x1fffffffffffffffff,0x67f4d3ff800020074),(173,0x1fffffffffffffffff,0x67f4d3ff800020074),(174,0x1fffffffffffffffff,0x67f4d3ff800020074),(175,0x1fffffffffffffffff,0x67f4d3ff800020074),(176,0x1fffffffffffffffff,0x67f4d3ff800020074),(177,0x1fffffffffffffffff,0x67f4d3ff800020074),(178,0x1fffffffffffffffff,0x67f4d3ff800020074),(179,0x1fffffffffffffffff,0x67f4d3ff800020074),(180,0x1fffffffffffffffff,0x67f4d3ff800020074),(181,0x1fffffffffffffffff,0x67f4d3ff800020074),(182,0x1fffffffffffffffff,0x67f4d3ff800020074),(183,0x1fffffffffffffffff,0x67f4d3ff800020074),(184,0x1fffffffffffffffff,0x67f4d3ff800020074),(185,0x1fffffffffffffffff,0x67f4d3ff800020074),(186,0x1fffffffffffffffff,0x67f4d3ff800020074),(187,0x1fffffffffffffffff,0x67f4d3ff800020074),(188,0x1fffffffffffffffff,0x67f4d3ff800020074),(189,0x1fffffffffffffffff,0x67f4d3ff800020074)]
  .l) [] (.n .l [] .l)) [] (.n (.n (.n .l [] .l) [] .l)
  [(130,0x1fffffffffffffffff,0x1fffefbff89ebf6c7e),(131,0x1fffffffffffffffff,0x1fffefbff89ebf6c7e),(154,0x1fffffffffffffffff,0x1fffefbff89ebf6c7e),(155,0x1fffffffffffffffff,0x1fffefbff89ebf6c7e),(158,0x1fffffffffffffffff,0x1fffefbff89ebf6c7e),(161,0x1fffffffffffffffff,0x1fffefbff89ebf6c7e),(162,0x1fffffffffffffffff,0x1fffefbff89ebf6c7e),(163,0x1fffffffffffffffff,0x1fffefbff89ebf6c7e),(164,0x1fffffffffffffffff,0x1fffefbff89ebf6c7e),(165,0x1fffffffffffffffff,0x1fffefbff89ebf6c7e),(166,0x1fffffffffffffffff,0x1fffefbff89ebf6c7e),(167,0x1fffffffffffffffff,0x1fffefbff89ebf6c7e),(168,0x1fffffffffffffffff,0x1fffefbff89ebf6c7e),(169,0x1fffffffffffffffff,0x1fffefbff89ebf6c7e),(170,0x1fffffffffffffffff,0x1fffefbff89ebf6c7e),(171,0x1fffffffffffffffff,0x1fffefbff89ebf6c7e),(172,0x1fffffffffffffffff,0x1fffefbff89ebf6c7e),(173,0x1fffffffffffffffff,0x1fffefbff89ebf6c7e),(174,0x1fffffffffffffffff,0x1fffefbff89ebf6c7e),(175,0x1fffffffffffffffff,0x1fffefbff89ebf6c7e),(176,0x1fffffffffffffffff,0x1fffefbff89ebf6c7e),(177,0x1fffffffffffffffff,0x1fffefbff89ebf6c7e),(178,0x1fffffffffffffffff,0x1fffefbff89ebf6c7e),(179,0x1fffffffffffffffff,0x1fffefbff89ebf6c7e),(180,0x1fffffffffffffffff,0x1fffefbff89ebf6c7e),(181,0x1fffffffffffffffff,0x1fffefbff89ebf6c7e),(182,0x1fffffffffffffffff,0x1fffefbff89ebf6c7e),(183,0x1fffffffffffffffff,0x1fffefbff89ebf6c7e),(184,0x1fffffffffffffffff,0x1fffefbff89ebf6c7e),(185,0x1fffffffffffffffff,0x1fffefbff89ebf6c7e),(186,0x1fffffffffffffffff,0x1fffefbff89ebf6c7e),(187,0x1fffffffffffffffff,0x1fffefbff89ebf6c7e),(188,0x1fffffffffffffffff,0x1fffefbff89ebf6c7e),(189,0x1fffffffffffffffff,0x1fffefbff89ebf6c7e)]
  (.n .l [] .l)))) [(159,0x1fffffffffffffffff,0x8000929a0000)] (.n (.n (.n (.n (.n .l [] .l) []
  .l) [] (.n .l
  [(130,0x1fffffffffffffffff,0x73fe93ff80c200c3e),(131,0x1fffffffffffffffff,0x73fe93ff80c200c3e),(154,0x1fffffffffffffffff,0x73fe93ff80c200c3e),(155,0x1fffffffffffffffff,0x73fe93ff80c200c3e),(158,0x1fffffffffffffffff,0x73fe93ff80c200c3e),(161,0x1fffffffffffffffff,0x73fe93ff80c200c3e),(162,0x1fffffffffffffffff,0x73fe93ff80c200c3e),(163,0x1fffffffffffffffff,0x73fe93ff80c200c3e),(164,0x1fffffffffffffffff,0x73fe93ff80c200c3e),(165,0x1fffffffffffffffff,0x73fe93ff80c200c3e),(166,0x1fffffffffffffffff,0x73fe93ff80c200c3e),(167,0x1fffffffffffffffff,0x73fe93ff80c200c3e),(168,0x1fffffffffffffffff,0x73fe93ff80c200c3e),(169,0x1fffffffffffffffff,0x73fe93ff80c200c3e),(170,0x1fffffffffffffffff,0x73fe93ff80c200c3e),(171,0x1fffffffffffffffff,0x73fe93ff80c200c3e),(172,0x1fffffffffffffffff,0x73fe93ff80c200c3e),(173,0x1fffffffffffffffff,0x73fe93ff80c200c3e),(174,0x1fffffffffffffffff,0x73fe93ff80c200c3e),(175,0x1fffffffffffffffff,0x73fe93ff80c200c3e),(176,0x1fffffffffffffffff,0x73fe93ff80c200c3e),(177,0x1fffffffffffffffff,0x73fe93ff80c200c3e),(178,0x1fffffffffffffffff,0x73fe93ff80c200c3e),(179,0x1fffffffffffffffff,0x73fe93ff80c200c3e),(180,0x1fffffffffffffffff,0x73fe93ff80c200c3e),(181,0x1fffffffffffffffff,0x73fe93ff80c200c3e),(182,0x1fffffffffffffffff,0x73fe93ff80c200c3e),(183,0x1fffffffffffffffff,0x73fe93ff80c200c3e),(184,0x1fffffffffffffffff,0x73fe93ff80c200c3e),(185,0x1fffffffffffffffff,0x73fe93ff80c200c3e),(186,0x1fffffffffffffffff,0x73fe93ff80c200c3e),(187,0x1fffffffffffffffff,0x73fe93ff80c200c3e),(188,0x1fffffffffffffffff,0x73fe93ff80c200c3e),(189,0x1fffffffffffffffff,0x73fe93ff80c200c3e)]
  .l)) [] (.n (.n (.n .l [] .l)
  [(130,0x1fffffffffffffffff,0x73fed3ff80c200c3e),(131,0x1fffffffffffffffff,0x73fed3ff80c200c3e),(154,0x1fffffffffffffffff,0x73fed3ff80c200c3e),(155,0x1fffffffffffffffff,0x73fed3ff80c200c3e),(158,0x1fffffffffffffffff,0x73fed3ff80c200c3e),(161,0x1fffffffffffffffff,0x73fed3ff80c200c3e),(162,0x1fffffffffffffffff,0x73fed3ff80c200c3e),(163,0x1fffffffffffffffff,0x73fed3ff80c200c3e),(164,0x1fffffffffffffffff,0x73fed3ff80c200c3e),(165,0x1fffffffffffffffff,0x73fed3ff80c200c3e),(166,0x1fffffffffffffffff,0x73fed3ff80c200c3e),(167,0x1fffffffffffffffff,0x73fed3ff80c200c3e),(168,0x1fffffffffffffffff,0x73fed3ff80c200c3e),(169,0x1fffffffffffffffff,0x73fed3ff80c200c3e),(170,0x1fffffffffffffffff,0x73fed3ff80c200c3e),(171,0x1fffffffffffffffff,0x73fed3ff80c200c3e),(172,0x1fffffffffffffffff,0x73fed3ff80c200c3e),(173,0x1fffffffffffffffff,0x73fed3ff80c200c3e),(174,0x1fffffffffffffffff,0x73fed3ff80c200c3e),(175,0x1fffffffffffffffff,0x73fed3ff80c200c3e),(176,0x1fffffffffffffffff,0x73fed3ff80c200c3e),(177,0x1fffffffffffffffff,0x73fed3ff80c200c3e),(178,0x1fffffffffffffffff,0x73fed3ff80c200c3e),(179,0x1fffffffffffffffff,0x73fed3ff80c200c3e),(180,0x1fffffffffffffffff,0x73fed3ff80c200c3e),(181,0x1fffffffffffffffff,0x73fed3ff80c200c3e),(182,0x1fffffffffffffffff,0x73fed3ff80c200c3e),(183,0x1fffffffffffffffff,0x73fed3ff80c200c3e),(184,0x1fffffffffffffffff,0x73fed3ff80c200c3e),(185,0x1fffffffffffffffff,0x73fed3ff80c200c3e),(186,0x1fffffffffffffffff,0x73fed3ff80c200c3e),(187,0x1fffffffffffffffff,0x73fed3ff80c200c3e),(188,0x1fffffffffffffffff,0x73fed3ff80c200c3e),(189,0x1fffffffffffffffff,0x73fed3ff80c200c3e)]
  .l)
  [(130,0x1fffffffffffffffff,0x1fffefbff89ebf6c7e),(131,0x1fffffffffffffffff,0x1fffefbff89ebf6c7e),(154,0x1fffffffffffffffff,0x1fffefbff89ebf6c7e),(155,0x1fffffffffffffffff,0x1fffefbff89ebf6c7e),(158,0x1fffffffffffffffff,0x1fffefbff89ebf6c7e),(161,0x1fffffffffffffffff,0x1fffefbff89ebf6c7e),(162,0x1fffffffffffffffff,0x1fffefbff89ebf6c7e),(163,0x1fffffffffffffffff,0x1fffefbff89ebf6c7e),(164,0x1fffffffffffffffff,0x1fffefbff89ebf6c7e),(165,0x1fffffffffffffffff,0x1fffefbff89ebf6c7e),(166,0x1fffffffffffffffff,0x1fffefbff89ebf6c7e),(167,0x1fffffffffffffffff,0x1fffefbff89ebf6c7e),(168,0x1fffffffffffffffff,0x1fffefbff89ebf6c7e),(169,0x1fffffffffffffffff,0x1fffefbff89ebf6c7e),(170,0x1fffffffffffffffff,0x1fffefbff89ebf6c7e),(171,0x1fffffffffffffffff,0x1fffefbff89ebf6c7e),(172,0x1fffffffffffffffff,0x1fffefbff89ebf6c7e),(173,0x1fffffffffffffffff,0x1fffefbff89ebf6c7e),(174,0x1fffffffffffffffff,0x1fffefbff89ebf6c7e),(175,0x1fffffffffffffffff,0x1fffefbff89ebf6c7e),(176,0x1fffffffffffffffff,0x1fffefbff89ebf6c7e),(177,0x1fffffffffffffffff,0x1fffefbff89ebf6c7e),(178,0x1fffffffffffffffff,0x1fffefbff89ebf6c7e),(179,0x1fffffffffffffffff,0x1fffefbff89ebf6c7e),(180,0x1fffffffffffffffff,0x1fffefbff89ebf6c7e),(181,0x1fffffffffffffffff,0x1fffefbff89ebf6c7e),(182,0x1fffffffffffffffff,0x1fffefbff89ebf6c7e),(183,0x1fffffffffffffffff,0x1fffefbff89ebf6c7e),(184,0x1fffffffffffffffff,0x1fffefbff89ebf6c7e),(185,0x1fffffffffffffffff,0x1fffefbff89ebf6c7e),(186,0x1fffffffffffffffff,0x1fffefbff89ebf6c7e),(187,0x1fffffffffffffffff,0x1fffefbff89ebf6c7e),(188,0x1fffffffffffffffff,0x1fffefbff89ebf6c7e),(189,0x1fffffffffffffffff,0x1fffefbff89ebf6c7e)]
  (.n .l [] .l))) [] (.n (.n (.n (.n .l [] .l) [] .l)
  [(193,0x1fffffffffffffffff,0x4000000000020074),(199,0x1fffffffffffffffff,0x4004000000020074)]
  (.n .l [] .l)) [(161,0x1fffffffffffffffff,0x1fffefbff89ebf6c7e)] (.n (.n .l [] .l) [] (.n .l
  [(130,0x1fffffffffffffffff,0x73f493ff800000000),(131,0x1fffffffffffffffff,0x73f483ff800000000),(154,0x1fffffffffffffffff,0x73f493ff800000000),(155,0x1fffffffffffffffff,0x73f493ff800000000),(158,0x1fffffffffffffffff,0x73f493ff800000000),(161,0x1fffffffffffffffff,0x73f493ff800000000),(162,0x1fffffffffffffffff,0x73f493ff800000000),(163,0x1fffffffffffffffff,0x73f493ff800000000),(164,0x1fffffffffffffffff,0x73f493ff800000000),(165,0x1fffffffffffffffff,0x73f493ff800000000),(166,0x1fffffffffffffffff,0x73f493ff800000000),(167,0x1fffffffffffffffff,0x73f493ff800000000),(168,0x1fffffffffffffffff,0x73f493ff800000000),(169,0x1fffffffffffffffff,0x73f493ff800000000),(170,0x1fffffffffffffffff,0x73f493ff800000000),(171,0x1fffffffffffffffff,0x73f493ff800000000),(172,0x1fffffffffffffffff,0x73f493ff800000000),(173,0x1fffffffffffffffff,0x73f493ff800000000),(174,0x1fffffffffffffffff,0x73f493ff800000000),(175,0x1fffffffffffffffff,0x73f493ff800000000),(176,0x1fffffffffffffffff,0x73f493ff800000000),(177,0x1fffffffffffffffff,0x73f493ff800000000),(178,0x1fffffffffffffffff,0x73f493ff800000000),(179,0x1fffffffffffffffff,0x73f493ff800000000),(180,0x1fffffffffffffffff,0x73f493ff800000000),(181,0x1fffffffffffffffff,0x73f493ff800000000),(182,0x1fffffffffffffffff,0x73f493ff800000000),(183,0x1fffffffffffffffff,0x73f493ff800000000),(184,0x1fffffffffffffffff,0x73f493ff800000000),(185,0x1fffffffffffffffff,0x73f493ff800000000),(186,0x1fffffffffffffffff,0x73f493ff800000000),(187,0x1fffffffffffffffff,0x73f493ff800000000),(188,0x1fffffffffffffffff,0x73f493ff800000000),(189,0x1fffffffffffffffff,0x73f493ff800000000)]
  .l))))) [] (.n (.n (.n (.n (.n (.n .l [] .l) [] .l) [] (.n .l [] .l)) [] (.n (.n (.n .l [] .l)
  [] .l) [] (.n .l
  [(130,0x1ffcffffffffffffff,0x73f493ff800000020),(131,0x1ffcffffffffffffff,0x73f483ff800000020),(155,0x1ffcffffffffffffff,0x73f493ff800000020),(158,0x1ffcffffffffffffff,0x73f493ff800000020),(161,0x1ffcffffffffffffff,0x73f493ff800000020),(162,0x1ffcffffffffffffff,0x73f493ff800000020),(163,0x1ffcffffffffffffff,0x73f493ff800000020),(164,0x1ffcffffffffffffff,0x73f493ff800000020),(165,0x1ffcffffffffffffff,0x73f493ff800000020),(166,0x1ffcffffffffffffff,0x73f493ff800000020),(167,0x1ffcffffffffffffff,0x73f493ff800000020),(168,0x1ffcffffffffffffff,0x73f493ff800000020),(169,0x1ffcffffffffffffff,0x73f493ff800000020),(170,0x1ffcffffffffffffff,0x73f493ff800000020),(171,0x1ffcffffffffffffff,0x73f493ff800000020),(172,0x1ffcffffffffffffff,0x73f493ff800000020),(173,0x1ffcffffffffffffff,0x73f493ff800000020),(174,0x1ffcffffffffffffff,0x73f493ff800000020),(175,0x1ffcffffffffffffff,0x73f493ff800000020),(176,0x1ffcffffffffffffff,0x73f493ff800000020),(177,0x1ffcffffffffffffff,0x73f493ff800000020),(178,0x1ffcffffffffffffff,0x73f493ff800000020),(179,0x1ffcffffffffffffff,0x73f493ff800000020),(180,0x1ffcffffffffffffff,0x73f493ff800000020),(182,0x1ffcffffffffffffff,0x73f493ff800000020),(183,0x1ffcffffffffffffff,0x73f493ff800000020),(184,0x1ffcffffffffffffff,0x73f493ff800000020),(185,0x1ffcffffffffffffff,0x73f493ff800000020),(186,0x1ffcffffffffffffff,0x73f493ff800000020),(187,0x1ffcffffffffffffff,0x73f493ff800000020),(188,0x1ffcffffffffffffff,0x73f493ff800000020),(189,0x1ffcffffffffffffff,0x73f493ff800000020)]
  .l)))
  [(141,0x1fffffffffffffffff,0x2010000000000000),(142,0x1fffffffffffffffff,0x2110000000000000),(143,0x1fffffffffffffffff,0x2110000000000000)]
  (.n (.n (.n (.n .l [] .l)
  [(137,0x1fffffffffffffffff,0x1000008000929f6020),(148,0x1fffffffffffffffff,0x1000008000929f6020),(152,0x1fffffffffffffffff,0x1000008000929f6020),(155,0x1fffffffffffffffff,0x1000008000929f6020)]
  .l) [(147,0x1fffffffffffffffff,0x4004000000000000)] (.n .l
  [(130,0x1fffffffffffffffff,0x6bf493ff800000000),(131,0x1fffffffffffffffff,0x6bf483ff800000000),(154,0x1fffffffffffffffff,0x6bf493ff800000000),(155,0x1fffffffffffffffff,0x6bf493ff800000000),(158,0x1fffffffffffffffff,0x6bf493ff800000000),(161,0x1fffffffffffffffff,0x6bf493ff800000000),(162,0x1fffffffffffffffff,0x6bf493ff800000000),(163,0x1fffffffffffffffff,0x6bf493ff800000000),(164,0x1fffffffffffffffff,0x6bf493ff800000000),(165,0x1fffffffffffffffff,0x6bf493ff800000000),(166,0x1fffffffffffffffff,0x6bf493ff800000000),(167,0x1fffffffffffffffff,0x6bf493ff800000000),(168,0x1fffffffffffffffff,0x6bf493ff800000000),(169,0x1fffffffffffffffff,0x6bf493ff800000000),(170,0x1fffffffffffffffff,0x6bf493ff800000000),(171,0x1fffffffffffffffff,0x6bf493ff800000000),(172,0x1fffffffffffffffff,0x6bf493ff800000000),(173,0x1fffffffffffffffff,0x6bf493ff800000000),(174,0x1fffffffffffffffff,0x6bf493ff800000000),(175,0x1fffffffffffffffff,0x6bf493ff800000000),(176,0x1fffffffffffffffff,0x6bf493ff800000000),(177,0x1fffffffffffffffff,0x6bf493ff800000000),(178,0x1fffffffffffffffff,0x6bf493ff800000000),(179,0x1fffffffffffffffff,0x6bf493ff800000000),(180,0x1fffffffffffffffff,0x6bf493ff800000000),(181,0x1fffffffffffffffff,0x6bf493ff800000000),(182,0x1fffffffffffffffff,0x6bf493ff800000000),(183,0x1fffffffffffffffff,0x6bf493ff800000000),(184,0x1fffffffffffffffff,0x6bf493ff800000000),(185,0x1fffffffffffffffff,0x6bf493ff800000000),(186,0x1fffffffffffffffff,0x6bf493ff800000000),(187,0x1fffffffffffffffff,0x6bf493ff800000000),(188,0x1fffffffffffffffff,0x6bf493ff800000000),(189,0x1fffffffffffffffff,0x6bf493ff800000000)]
  .l))
  [(130,0x1fffffffffffffffff,0x163f49bff8929f6020),(131,0x1fffffffffffffffff,0x163f48bff8929f6020),(134,0x1fffffffffffffffff,0x1000008000929f6020),(148,0x1fffffffffffffffff,0x1000008000929f6020),(154,0x1fffffffffffffffff,0x163f49bff8929f6020),(155,0x1fffffffffffffffff,0x163f49bff8929f6020),(158,0x1fffffffffffffffff,0x163f49bff8929f6020),(161,0x1fffffffffffffffff,0x163f49bff8929f6020),(162,0x1fffffffffffffffff,0x163f49bff8929f6020),(163,0x1fffffffffffffffff,0x163f49bff8929f6020),(164,0x1fffffffffffffffff,0x163f49bff8929f6020),(165,0x1fffffffffffffffff,0x163f49bff8929f6020),(166,0x1fffffffffffffffff,0x163f49bff8929f6020),(167,0x1fffffffffffffffff,0x163f49bff8929f6020),(168,0x1fffffffffffffffff,0x163f49bff8929f6020),(169,0x1fffffffffffffffff,0x163f49bff8929f6020),(170,0x1fffffffffffffffff,0x163f49bff8929f6020),(171,0x1fffffffffffffffff,0x163f49bff8929f6020),(172,0x1fffffffffffffffff,0x163f49bff8929f6020),(173,0x1fffffffffffffffff,0x163f49bff8929f6020),(174,0x1fffffffffffffffff,0x163f49bff8929f6020),(175,0x1fffffffffffffffff,0x163f49bff8929f6020),(176,0x1fffffffffffffffff,0x163f49bff8929f6020),(177,0x1fffffffffffffffff,0x163f49bff8929f6020),(178,0x1fffffffffffffffff,0x163f49bff8929f6020),(179,0x1fffffffffffffffff,0x163f49bff8929f6020),(180,0x1fffffffffffffffff,0x163f49bff8929f6020),(181,0x1fffffffffffffffff,0x163f49bff8929f6020),(182,0x1fffffffffffffffff,0x163f49bff8929f6020),(183,0x1fffffffffffffffff,0x163f49bff8929f6020),(184,0x1fffffffffffffffff,0x163f49bff8929f6020),(185,0x1fffffffffffffffff,0x163f49bff8929f6020),(186,0x1fffffffffffffffff,0x163f49bff8929f6020),(187,0x1fffffffffffffffff,0x163f49bff8929f6020),(188,0x1fffffffffffffffff,0x163f49bff8929f6020),(189,0x1fffffffffffffffff,0x163f49bff8929f6020)]
  (.n (.n (.n .l [] .l)
  [(130,0x1fffffffffffffffff,0x1e3f49bff8929f6020),(131,0x1fffffffffffffffff,0x1e3f48bff8929f6020),(154,0x1fffffffffffffffff,0x1e3f49bff8929f6020),(155,0x1fffffffffffffffff,0x1e3f49bff8929f6020),(158,0x1fffffffffffffffff,0x1e3f49bff8929f6020),(161,0x1fffffffffffffffff,0x1e3f49bff8929f6020),(162,0x1fffffffffffffffff,0x1e3f49bff8929f6020),(163,0x1fffffffffffffffff,0x1e3f49bff8929f6020),(164,0x1fffffffffffffffff,0x1e3f49bff8929f6020),(165,0x1fffffffffffffffff,0x1e3f49bff8929f6020),(166,0x1fffffffffffffffff,0x1e3f49bff8929f6020),(167,0x1fffffffffffffffff,0x1e3f49bff8929f6020),(168,0x1fffffffffffffffff,0x1e3f49bff8929f6020),(169,0x1fffffffffffffffff,0x1e3f49bff8929f6020),(170,0x1fffffffffffffffff,0x1e3f49bff8929f6020),(171,0x1fffffffffffffffff,0x1e3f49bff8929f6020),(172,0x1fffffffffffffffff,0x1e3f49bff8929f6020),(173,0x1fffffffffffffffff,0x1e3f49bff8929f6020),(174,0x1fffffffffffffffff,0x1e3f49bff8929f6020),(175,0x1fffffffffffffffff,0x1e3f49bff8929f6020),(176,0x1fffffffffffffffff,0x1e3f49bff8929f6020),(177,0x1fffffffffffffffff,0x1e3f49bff8929f6020),(178,0x1fffffffffffffffff,0x1e3f49bff8929f6020),(179,0x1fffffffffffffffff,0x1e3f49bff8929f6020),(180,0x1fffffffffffffffff,0x1e3f49bff8929f6020),(181,0x1fffffffffffffffff,0x1e3f49bff8929f6020),(182,0x1fffffffffffffffff,0x1e3f49bff8929f6020),(183,0x1fffffffffffffffff,0x1e3f49bff8929f6020),(184,0x1fffffffffffffffff,0x1e3f49bff8929f6020),(185,0x1fffffffffffffffff,0x1e3f49bff8929f6020),(186,0x1fffffffffffffffff,0x1e3f49bff8929f6020),(187,0x1fffffffffffffffff,0x1e3f49bff8929f6020),(188,0x1fffffffffffffffff,0x1e3f49bff8929f6020),(189,0x1fffffffffffffffff,0x1e3f49bff8929f6020)]
  .l)
  [(130,0x1fffffffffffffffff,0x73fed3ff80c200c3e),(131,0x1fffffffffffffffff,0x73fed3ff80c200c3e),(154,0x1fffffffffffffffff,0x73fed3ff80c200c3e),(155,0x1fffffffffffffffff,0x73fed3ff80c200c3e),(158,0x1fffffffffffffffff,0x73fed3ff80c200c3e),(161,0x1fffffffffffffffff,0x73fed3ff80c200c3e),(162,0x1fffffffffffffffff,0x73fed3ff80c200c3e),(163,0x1fffffffffffffffff,0x73fed3ff80c200c3e),(164,0x1fffffffffffffffff,0x73fed3ff80c200c3e),(165,0x1fffffffffffffffff,0x73fed3ff80c200c3e),(166,0x1fffffffffffffffff,0x73fed3ff80c200c3e),(167,0x1fffffffffffffffff,0x73fed3ff80c200c3e),(168,0x1fffffffffffffffff,0x73fed3ff80c200c3e),(169,0x1fffffffffffffffff,0x73fed3ff80c200c3e),(170,0x1fffffffffffffffff,0x73fed3ff80c200c3e),(171,0x1fffffffffffffffff,0x73fed3ff80c200c3e),(172,0x1fffffffffffffffff,0x73fed3ff80c200c3e),(173,0x1fffffffffffffffff,0x73fed3ff80c200c3e),(174,0x1fffffffffffffffff,0x73fed3ff80c200c3e),(175,0x1fffffffffffffffff,0x73fed3ff80c200c3e),(176,0x1fffffffffffffffff,0x73fed3ff80c200c3e),(177,0x1fffffffffffffffff,0x73fed3ff80c200c3e),(178,0x1fffffffffffffffff,0x73fed3ff80c200c3e),(179,0x1fffffffffffffffff,0x73fed3ff80c200c3e),(180,0x1fffffffffffffffff,0x73fed3ff80c200c3e),(181,0x1fffffffffffffffff,0x73fed3ff80c200c3e),(182,0x1fffffffffffffffff,0x73fed3ff80c200c3e),(183,0x1fffffffffffffffff,0x73fed3ff80c200c3e),(184,0x1fffffffffffffffff,0x73fed3ff80c200c3e),(185,0x1fffffffffffffffff,0x73fed3ff80c200c3e),(186,0x1fffffffffffffffff,0x73fed3ff80c200c3e),(187,0x1fffffffffffffffff,0x73fed3ff80c200c3e),(188,0x1fffffffffffffffff,0x73fed3ff80c200c3e),(189,0x1fffffffffffffffff,0x73fed3ff80c200c3e)]
  (.n .l [] .l)))) [] (.n (.n (.n (.n (.n .l [] .l)
  [(193,0x1fffffffffffffffff,0x4000000000020074)] .l) [] (.n .l [] .l))
  [(139,0x1fffffffffffffffff,0x4000000000020074),(153,0x1fffffffffffffffff,0x2000000000000),(156,0x1fffffffffffffffff,0x4004000000020074),(157,0x1fffffffffffffffff,0x2000000000000),(193,0x1fffffffffffffffff,0x4000000000020074),(200,0x1fffffffffffffffff,0x4000000000020054)]
  (.n (.n (.n .l [] .l) [(202,0x1fffffffffffffffff,0x8004000000000020)] .l)
  [(130,0x1fffffffffffffffff,0x1fffefbff89ebf6c7e),(131,0x1fffffffffffffffff,0x1fffefbff89ebf6c7e),(154,0x1fffffffffffffffff,0x1fffefbff89ebf6c7e),(155,0x1fffffffffffffffff,0x1fffefbff89ebf6c7e),(158,0x1fffffffffffffffff,0x1fffefbff89ebf6c7e),(161,0x1fffffffffffffffff,0x1fffefbff89ebf6c7e),(162,0x1fffffffffffffffff,0x1fffefbff89ebf6c7e),(163,0x1fffffffffffffffff,0x1fffefbff89ebf6c7e),(164,0x1fffffffffffffffff,0x1fffefbff89ebf6c7e),(165,0x1fffffffffffffffff,0x1fffefbff89ebf6c7e),(166,0x1fffffffffffffffff,0x1fffefbff89ebf6c7e),(167,0x1fffffffffffffffff,0x1fffefbff89ebf6c7e),(168,0x1fffffffffffffffff,0x1fffefbff89ebf6c7e),(169,0x1fffffffffffffffff,0x1fffefbff89ebf6c7e),(170,0x1fffffffffffffffff,0x1fffefbff89ebf6c7e),(171,0x1fffffffffffffffff,0x1fffefbff89ebf6c7e),(172,0x1fffffffffffffffff,0x1fffefbff89ebf6c7e),(173,0x1fffffffffffffffff,0x1fffefbff89ebf6c7e),(174,0x1fffffffffffffffff,0x1fffefbff89ebf6c7e),(175,0x1fffffffffffffffff,0x1fffefbff89ebf6c7e),(176,0x1fffffffffffffffff,0x1fffefbff89ebf6c7e),(177,0x1fffffffffffffffff,0x1fffefbff89ebf6c7e),(178,0x1fffffffffffffffff,0x1fffefbff89ebf6c7e),(179,0x1fffffffffffffffff,0x1fffefbff89ebf6c7e),(180,0x1fffffffffffffffff,0x1fffefbff89ebf6c7e),(181,0x1fffffffffffffffff,0x1fffefbff89ebf6c7e),(182,0x1fffffffffffffffff,0x1fffefbff89ebf6c7e),(183,0x1fffffffffffffffff,0x1fffefbff89ebf6c7e),(184,0x1fffffffffffffffff,0x1fffefbff89ebf6c7e),(185,0x1fffffffffffffffff,0x1fffefbff89ebf6c7e),(186,0x1fffffffffffffffff,0x1fffefbff89ebf6c7e),(187,0x1fffffffffffffffff,0x1fffefbff89ebf6c7e),(188,0x1fffffffffffffffff,0x1fffefbff89ebf6c7e),(189,0x1fffffffffffffffff,0x1fffefbff89ebf6c7e)]
  (.n .l
  [(130,0x1fffffffffffffffff,0x163f49bff8929f6020),(131,0x1fffffffffffffffff,0x163f48bff8929f6020),(154,0x1fffffffffffffffff,0x163f49bff8929f6020),(155,0x1fffffffffffffffff,0x163f49bff8929f6020),(158,0x1fffffffffffffffff,0x163f49bff8929f6020),(161,0x1fffffffffffffffff,0x163f49bff8929f6020),(162,0x1fffffffffffffffff,0x163f49bff8929f6020),(163,0x1fffffffffffffffff,0x163f49bff8929f6020),(164,0x1fffffffffffffffff,0x163f49bff8929f6020),(165,0x1fffffffffffffffff,0x163f49bff8929f6020),(166,0x1fffffffffffffffff,0x163f49bff8929f6020),(167,0x1fffffffffffffffff,0x163f49bff8929f6020),(168,0x1fffffffffffffffff,0x163f49bff8929f6020),(169,0x1fffffffffffffffff,0x163f49bff8929f6020),(170,0x1fffffffffffffffff,0x163f49bff8929f6020),(171,0x1fffffffffffffffff,0x163f49bff8929f6020),(172,0x1fffffffffffffffff,0x163f49bff8929f6020),(173,0x1fffffffffffffffff,0x163f49bff8929f6020),(174,0x1fffffffffffffffff,0x163f49bff8929f6020),(175,0x1fffffffffffffffff,0x163f49bff8929f6020),(176,0x1fffffffffffffffff,0x163f49bff8929f6020),(177,0x1fffffffffffffffff,0x163f49bff8929f6020),(178,0x1fffffffffffffffff,0x163f49bff8929f6020),(179,0x1fffffffffffffffff,0x163f49bff8929f6020),(180,0x1fffffffffffffffff,0x163f49bff8929f6020),(181,0x1fffffffffffffffff,0x163f49bff8929f6020),(182,0x1fffffffffffffffff,0x163f49bff8929f6020),(183,0x1fffffffffffffffff,0x163f49bff8929f6020),(184,0x1fffffffffffffffff,0x163f49bff8929f6020),(185,0x1fffffffffffffffff,0x163f49bff8929f6020),(186,0x1fffffffffffffffff,0x163f49bff8929f6020),(187,0x1fffffffffffffffff,0x163f49bff8929f6020),(188,0x1fffffffffffffffff,0x163f49bff8929f6020),(189,0x1fffffffffffffffff,0x163f49bff8929f6020)]
  .l))) [(155,0x1fffffffffffffffff,0x1000008001929f6020)] (.n (.n (.n (.n .l [] .l) [] .l) [] (.n
  .l [] .l)) [] (.n (.n .l [] .l)
  [(130,0x1fffffffffffffffff,0x163f49bff8929f6020),(131,0x1fffffffffffffffff,0x163f48bff8929f6020),(136,0x1fffffffffffffffff,0x1000008000929f6020),(148,0x1fffffffffffffffff,0x1000008000929f6020),(154,0x1fffffffffffffffff,0x163f49bff8929f6020),(155,0x1fffffffffffffffff,0x163f49bff8929f6020),(158,0x1fffffffffffffffff,0x163f49bff8929f6020),(161,0x1fffffffffffffffff,0x163f49bff8929f6020),(162,0x1fffffffffffffffff,0x163f49bff8929f6020),(163,0x1fffffffffffffffff,0x163f49bff8929f6020),(164,0x1fffffffffffffffff,0x163f49bff8929f6020),(165,0x1fffffffffffffffff,0x163f49bff8929f6020),(166,0x1fffffffffffffffff,0x163f49bff8929f6020),(167,0x1fffffffffffffffff,0x163f49bff8929f6020),(168,0x1fffffffffffffffff,0x163f49bff8929f6020),(169,0x1fffffffffffffffff,0x163f49bff8929f6020),(170,0x1fffffffffffffffff,0x163f49bff8929f6020),(171,0x1fffffffffffffffff,0x163f49bff8929f6020),(172,0x1fffffffffffffffff,0x163f49bff8929f6020),(173,0x1fffffffffffffffff,0x163f49bff8929f6020),(174,0x1fffffffffffffffff,0x163f49bff8929f6020),(175,0x1fffffffffffffffff,0x163f49bff8929f6020),(176,0x1fffffffffffffffff,0x163f49bff8929f6020),(177,0x1fffffffffffffffff,0x163f49bff8929f6020),(178,0x1fffffffffffffffff,0x163f49bff8929f6020),(179,0x1fffffffffffffffff,0x163f49bff8929f6020),(180,0x1fffffffffffffffff,0x163f49bff8929f6020),(181,0x1fffffffffffffffff,0x163f49bff8929f6020),(182,0x1fffffffffffffffff,0x163f49bff8929f6020),(183,0x1fffffffffffffffff,0x163f49bff8929f6020),(184,0x1fffffffffffffffff,0x163f49bff8929f6020),(185,0x1fffffffffffffffff,0x163f49bff8929f6020),(186,0x1fffffffffffffffff,0x163f49bff8929f6020),(187,0x1fffffffffffffffff,0x163f49bff8929f6020),(188,0x1fffffffffffffffff,0x163f49bff8929f6020),(189,0x1fffffffffffffffff,0x163f49bff8929f6020)]
  (.n .l [] .l)))))) [] (.n (.n (.n (.n (.n (.n (.n .l [] .l) [] .l) [] (.n .l [] .l)) [] (.n (.n
  (.n .l [] .l) [] .l)
  [(130,0x1fffffffffffffffff,0x163f49bff8929f6020),(131,0x1fffffffffffffffff,0x163f48bff8929f6020),(154,0x1fffffffffffffffff,0x163f49bff8929f6020),(155,0x1fffffffffffffffff,0x163f49bff8929f6020),(158,0x1fffffffffffffffff,0x163f49bff8929f6020),(161,0x1fffffffffffffffff,0x163f49bff8929f6020),(162,0x1fffffffffffffffff,0x163f49bff8929f6020),(163,0x1fffffffffffffffff,0x163f49bff8929f6020),(164,0x1fffffffffffffffff,0x163f49bff8929f6020),(165,0x1fffffffffffffffff,0x163f49bff8929f6020),(166,0x1fffffffffffffffff,0x163f49bff8929f6020),(167,0x1fffffffffffffffff,0x163f49bff8929f6020),(168,0x1fffffffffffffffff,0x163f49bff8929f6020),(169,0x1fffffffffffffffff,0x163f49bff8929f6020),(170,0x1fffffffffffffffff,0x163f49bff8929f6020),(171,0x1fffffffffffffffff,0x163f49bff8929f6020),(172,0x1fffffffffffffffff,0x163f49bff8929f6020),(173,0x1fffffffffffffffff,0x163f49bff8929f6020),(174,0x1fffffffffffffffff,0x163f49bff8929f6020),(175,0x1fffffffffffffffff,0x163f49bff8929f6020),(176,0x1fffffffffffffffff,0x163f49bff8929f6020),(177,0x1fffffffffffffffff,0x163f49bff8929f6020),(178,0x1fffffffffffffffff,0x163f49bff8929f6020),(179,0x1fffffffffffffffff,0x163f49bff8929f6020),(180,0x1fffffffffffffffff,0x163f49bff8929f6020),(181,0x1fffffffffffffffff,0x163f49bff8929f6020),(182,0x1fffffffffffffffff,0x163f49bff8929f6020),(183,0x1fffffffffffffffff,0x163f49bff8929f6020),(184,0x1fffffffffffffffff,0x163f49bff8929f6020),(185,0x1fffffffffffffffff,0x163f49bff8929f6020),(186,0x1fffffffffffffffff,0x163f49bff8929f6020),(187,0x1fffffffffffffffff,0x163f49bff8929f6020),(188,0x1fffffffffffffffff,0x163f49bff8929f6020),(189,0x1fffffffffffffffff,0x163f49bff8929f6020)]
  (.n .l
  [(130,0x1fffffffffffffffff,0x73fe93ff80c200c3e),(131,0x1fffffffffffffffff,0x73fe93ff80c200c3e),(154,0x1fffffffffffffffff,0x73fe93ff80c200c3e),(155,0x1fffffffffffffffff,0x73fe93ff80c200c3e),(158,0x1fffffffffffffffff,0x73fe93ff80c200c3e),(161,0x1fffffffffffffffff,0x73fe93ff80c200c3e),(162,0x1fffffffffffffffff,0x73fe93ff80c200c3e),(163,0x1fffffffffffffffff,0x73fe93ff80c200c3e),(164,0x1fffffffffffffffff,0x73fe93ff80c200c3e),(165,0x1fffffffffffffffff,0x73fe93ff80c200c3e),(166,0x1fffffffffffffffff,0x73fe93ff80c200c3e),(167,0x1fffffffffffffffff,0x73fe93ff80c200c3e),(168,0x1fffffffffffffffff,0x73fe93ff80c200c3e),(169,0x1fffffffffffffffff,0x73fe93ff80c200c3e),(170,0x1fffffffffffffffff,0x73fe93ff80c200c3e),(171,0x1fffffffffffffffff,0x73fe93ff80c200c3e),(172,0x1fffffffffffffffff,0x73fe93ff80c200c3e),(173,0x1fffffffffffffffff,0x73fe93ff80c200c3e),(174,0x1fffffffffffffffff,0x73fe93ff80c200c3e),(175,0x1fffffffffffffffff,0x73fe93ff80c200c3e),(176,0x1fffffffffffffffff,0x73fe93ff80c200c3e),(177,0x1fffffffffffffffff,0x73fe93ff80c200c3e),(178,0x1fffffffffffffffff,0x73fe93ff80c200c3e),(179,0x1fffffffffffffffff,0x73fe93ff80c200c3e),(180,0x1fffffffffffffffff,0x73fe93ff80c200c3e),(181,0x1fffffffffffffffff,0x73fe93ff80c200c3e),(182,0x1fffffffffffffffff,0x73fe93ff80c200c3e),(183,0x1fffffffffffffffff,0x73fe93ff80c200c3e),(184,0x1fffffffffffffffff,0x73fe93ff80c200c3e),(185,0x1fffffffffffffffff,0x73fe93ff80c200c3e),(186,0x1fffffffffffffffff,0x73fe93ff80c200c3e),(187,0x1fffffffffffffffff,0x73fe93ff80c200c3e),(188,0x1fffffffffffffffff,0x73fe93ff80c200c3e),(189,0x1fffffffffffffffff,0x73fe93ff80c200c3e)]
  .l))) [] (.n (.n (.n (.n .l [] .l) [] .l)
  [(141,0x1fffffffffffffffff,0x800000000),(142,0x1fffffffffffffffff,0x100000800000000),(143,0x1fffffffffffffffff,0x100000800000000)]
  (.n .l
  [(130,0x1fffffffffffffffff,0x6bf4d3ff800000020),(131,0x1fffffffffffffffff,0x6bf4c3ff800000020),(154,0x1fffffffffffffffff,0x6bf4d3ff800000020),(155,0x1fffffffffffffffff,0x6bf4d3ff800000020),(158,0x1fffffffffffffffff,0x6bf4d3ff800000020),(161,0x1fffffffffffffffff,0x6bf4d3ff800000020),(162,0x1fffffffffffffffff,0x6bf4d3ff800000020),(163,0x1fffffffffffffffff,0x6bf4d3ff800000020),(164,0x1fffffffffffffffff,0x6bf4d3ff800000020),(165,0x1fffffffffffffffff,0x6bf4d3ff800000020),(166,0x1fffffffffffffffff,0x6bf4d3ff800000020),(167,0x1fffffffffffffffff,0x6bf4d3ff800000020),(168,0x1fffffffffffffffff,0x6bf4d3ff800000020),(169,0x1fffffffffffffffff,0x6bf4d3ff800000020),(170,0x1fffffffffffffffff,0x6bf4d3ff800000020),(171,0x1fffffffffffffffff,0x6bf4d3ff800000020),(172,0x1fffffffffffffffff,0x6bf4d3ff800000020),(173,0x1fffffffffffffffff,0x6bf4d3ff800000020),(174,0x1fffffffffffffffff,0x6bf4d3ff800000020),(175,0x1fffffffffffffffff,0x6bf4d3ff800000020),(176,0x1fffffffffffffffff,0x6bf4d3ff800000020),(177,0x1fffffffffffffffff,0x6bf4d3ff800000020),(178,0x1fffffffffffffffff,0x6bf4d3ff800000020),(179,0x1fffffffffffffffff,0x6bf4d3ff800000020),(180,0x1fffffffffffffffff,0x6bf4d3ff800000020),(181,0x1fffffffffffffffff,0x6bf4d3ff800000020),(182,0x1fffffffffffffffff,0x6bf4d3ff800000020),(183,0x1fffffffffffffffff,0x6bf4d3ff800000020),(184,0x1fffffffffffffffff,0x6bf4d3ff800000020),(185,0x1fffffffffffffffff,0x6bf4d3ff800000020),(186,0x1fffffffffffffffff,0x6bf4d3ff800000020),(187,0x1fffffffffffffffff,0x6bf4d3ff800000020),(188,0x1fffffffffffffffff,0x6bf4d3ff800000020),(189,0x1fffffffffffffffff,0x6bf4d3ff800000020)]
  .l)) [(144,0x1fffffffffffffffff,0x18a1148008929f6020)] (.n (.n (.n .l [] .l) [] .l) [] (.n .l
  [(148,0x1fffffffffffffffff,0x20),(152,0x1fffffffffffffffff,0x20),(155,0x1fffffffffffffffff,0x20)]
  .l)))) [] (.n (.n (.n (.n (.n .l [] .l) [] .l) [] (.n .l
  [(130,0x1fffffffffffffffff,0x63f4b3ff800000000),(131,0x1fffffffffffffffff,0x63f4a3ff800000000),(154,0x1fffffffffffffffff,0x63f4b3ff800000000),(155,0x1fffffffffffffffff,0x63f4b3ff800000000),(158,0x1fffffffffffffffff,0x63f4b3ff800000000),(161,0x1fffffffffffffffff,0x63f4b3ff800000000),(162,0x1fffffffffffffffff,0x63f4b3ff800000000),(163,0x1fffffffffffffffff,0x63f4b3ff800000000),(164,0x1fffffffffffffffff,0x63f4b3ff800000000),(165,0x1fffffffffffffffff,0x63f4b3ff800000000),(166,0x1fffffffffffffffff,0x63f4b3ff800000000),(167,0x1fffffffffffffffff,0x63f4b3ff800000000),(168,0x1fffffffffffffffff,0x63f4b3ff800000000),(169,0x1fffffffffffffffff,0x63f4b3ff800000000),(170,0x1fffffffffffffffff,0x63f4b3ff800000000),(171,0x1fffffffffffffffff,0x63f4b3ff800000000),(172,0x1fffffffffffffffff,0x63f4b3ff800000000),(173,0x1fffffffffffffffff,0x63f4b3ff800000000),(174,0x1fffffffffffffffff,0x63f4b3ff800000000),(175,0x1fffffffffffffffff,0x63f4b3ff800000000),(176,0x1fffffffffffffffff,0x63f4b3ff800000000),(177,0x1fffffffffffffffff,0x63f4b3ff800000000),(178,0x1fffffffffffffffff,0x63f4b3ff800000000),(179,0x1fffffffffffffffff,0x63f4b3ff800000000),(180,0x1fffffffffffffffff,0x63f4b3ff800000000),(181,0x1fffffffffffffffff,0x63f4b3ff800000000),(182,0x1fffffffffffffffff,0x63f4b3ff800000000),(183,0x1fffffffffffffffff,0x63f4b3ff800000000),(184,0x1fffffffffffffffff,0x63f4b3ff800000000),(185,0x1fffffffffffffffff,0x63f4b3ff800000000),(186,0x1fffffffffffffffff,0x63f4b3ff800000000),(187,0x1fffffffffffffffff,0x63f4b3ff800000000),(188,0x1fffffffffffffffff,0x63f4b3ff800000000),(189,0x1fffffffffffffffff,0x63f4b3ff800000000)]
  .l)) [] (.n (.n (.n .l [] .l) [(193,0x1fffffffffffffffff,0x103a100000c200c3e)] .l)
  [(130,0x1fffffffffffffffff,0x1fffefbff89ebf6c7e),(131,0x1fffffffffffffffff,0x1fffefbff89ebf6c7e),(154,0x1fffffffffffffffff,0x1fffefbff89ebf6c7e),(155,0x1fffffffffffffffff,0x1fffefbff89ebf6c7e),(158,0x1fffffffffffffffff,0x1fffefbff89ebf6c7e),(161,0x1fffffffffffffffff,0x1fffefbff89ebf6c7e),(162,0x1fffffffffffffffff,0x1fffefbff89ebf6c7e),(163,0x1fffffffffffffffff,0x1fffefbff89ebf6c7e),(164,0x1fffffffffffffffff,0x1fffefbff89ebf6c7e),(165,0x1fffffffffffffffff,0x1fffefbff89ebf6c7e),(166,0x1fffffffffffffffff,0x1fffefbff89ebf6c7e),(167,0x1fffffffffffffffff,0x1fffefbff89ebf6c7e),(168,0x1fffffffffffffffff,0x1fffefbff89ebf6c7e),(169,0x1fffffffffffffffff,0x1fffefbff89ebf6c7e),(170,0x1fffffffffffffffff,0x1fffefbff89ebf6c7e),(171,0x1fffffffffffffffff,0x1fffefbff89ebf6c7e),(172,0x1fffffffffffffffff,0x1fffefbff89ebf6c7e),(173,0x1fffffffffffffffff,0x1fffefbff89ebf6c7e),(174,0x1fffffffffffffffff,0x1fffefbff89ebf6c7e),(175,0x1fffffffffffffffff,0x1fffefbff89ebf6c7e),(176,0x1fffffffffffffffff,0x1fffefbff89ebf6c7e),(177,0x1fffffffffffffffff,0x1fffefbff89ebf6c7e),(178,0x1fffffffffffffffff,0x1fffefbff89ebf6c7e),(179,0x1fffffffffffffffff,0x1fffefbff89ebf6c7e),(180,0x1fffffffffffffffff,0x1fffefbff89ebf6c7e),(181,0x1fffffffffffffffff,0x1fffefbff89ebf6c7e),(182,0x1fffffffffffffffff,0x1fffefbff89ebf6c7e),(183,0x1fffffffffffffffff,0x1fffefbff89ebf6c7e),(184,0x1fffffffffffffffff,0x1fffefbff89ebf6c7e),(185,0x1fffffffffffffffff,0x1fffefbff89ebf6c7e),(186,0x1fffffffffffffffff,0x1fffefbff89ebf6c7e),(187,0x1fffffffffffffffff,0x1fffefbff89ebf6c7e),(188,0x1fffffffffffffffff,0x1fffefbff89ebf6c7e),(189,0x1fffffffffffffffff,0x1fffefbff89ebf6c7e)]
  (.n .l [] .l))) [] (.n (.n (.n (.n .l [] .l) [] .l) [] (.n .l [] .l)) [] (.n (.n .l [] .l) []
  (.n .l [] .l))))) [] (.n (.n (.n (.n (.n (.n .l [(193,0x1fffffffffffffffff,0x4000000000020074)]
  .l) [] .l) [] (.n .l [(197,0x1fffffffffffffffff,0x8004000000000000)] .l)) [] (.n (.n (.n .l []
  .l) [] .l)
  [(130,0x1fffffffffffffffff,0x1fffefbff89ebf6c7e),(131,0x1fffffffffffffffff,0x1fffefbff89ebf6c7e),(154,0x1fffffffffffffffff,0x1fffefbff89ebf6c7e),(155,0x1fffffffffffffffff,0x1fffefbff89ebf6c7e),(158,0x1fffffffffffffffff,0x1fffefbff89ebf6c7e),(161,0x1fffffffffffffffff,0x1fffefbff89ebf6c7e),(162,0x1fffffffffffffffff,0x1fffefbff89ebf6c7e),(163,0x1fffffffffffffffff,0x1fffefbff89ebf6c7e),(164,0x1fffffffffffffffff,0x1fffefbff89ebf6c7e),(165,0x1fffffffffffffffff,0x1fffefbff89ebf6c7e),(166,0x1fffffffffffffffff,0x1fffefbff89ebf6c7e),(167,0x1fffffffffffffffff,0x1fffefbff89ebf6c7e),(168,0x1fffffffffffffffff,0x1fffefbff89ebf6c7e),(169,0x1fffffffffffffffff,0x1fffefbff89ebf6c7e),(170,0x1fffffffffffffffff,0x1fffefbff89ebf6c7e),(171,0x1fffffffffffffffff,0x1fffefbff89ebf6c7e),(172,0x1fffffffffffffffff,0x1fffefbff89ebf6c7e),(173,0x1fffffffffffffffff,0x1fffefbff89ebf6c7e),(174,0x1fffffffffffffffff,0x1fffefbff89ebf6c7e),(175,0x1fffffffffffffffff,0x1fffefbff89ebf6c7e),(176,0x1fffffffffffffffff,0x1fffefbff89ebf6c7e),(177,0x1fffffffffffffffff,0x1fffefbff89ebf6c7e),(178,0x1fffffffffffffffff,0x1fffefbff89ebf6c7e),(179,0x1fffffffffffffffff,0x1fffefbff89ebf6c7e),(180,0x1fffffffffffffffff,0x1fffefbff89ebf6c7e),(181,0x1fffffffffffffffff,0x1fffefbff89ebf6c7e),(182,0x1fffffffffffffffff,0x1fffefbff89ebf6c7e),(183,0x1fffffffffffffffff,0x1fffefbff89ebf6c7e),(184,0x1fffffffffffffffff,0x1fffefbff89ebf6c7e),(185,0x1fffffffffffffffff,0x1fffefbff89ebf6c7e),(186,0x1fffffffffffffffff,0x1fffefbff89ebf6c7e),(187,0x1fffffffffffffffff,0x1fffefbff89ebf6c7e),(188,0x1fffffffffffffffff,0x1fffefbff89ebf6c7e),(189,0x1fffffffffffffffff,0x1fffefbff89ebf6c7e)]
  (.n .l [] .l))) [] (.n (.n (.n (.n .l [] .l) [] .l) [] (.n .l [] .l)) [] (.n (.n .l [] .l) []
  (.n .l
  [(130,0x1ffcffffffffffffff,0x73f493ff800000020),(131,0x1ffcffffffffffffff,0x73f483ff800000020),(155,0x1ffcffffffffffffff,0x73f493ff800000020),(158,0x1ffcffffffffffffff,0x73f493ff800000020),(161,0x1ffcffffffffffffff,0x73f493ff800000020),(162,0x1ffcffffffffffffff,0x73f493ff800000020),(163,0x1ffcffffffffffffff,0x73f493ff800000020),(164,0x1ffcffffffffffffff,0x73f493ff800000020),(165,0x1ffcffffffffffffff,0x73f493ff800000020),(166,0x1ffcffffffffffffff,0x73f493ff800000020),(167,0x1ffcffffffffffffff,0x73f493ff800000020),(168,0x1ffcffffffffffffff,0x73f493ff800000020),(169,0x1ffcffffffffffffff,0x73f493ff800000020),(170,0x1ffcffffffffffffff,0x73f493ff800000020),(171,0x1ffcffffffffffffff,0x73f493ff800000020),(172,0x1ffcffffffffffffff,0x73f493ff800000020),(173,0x1ffcffffffffffffff,0x73f493ff800000020),(174,0x1ffcffffffffffffff,0x73f493ff800000020),(175,0x1ffcffffffffffffff,0x73f493ff800000020),(176,0x1ffcffffffffffffff,0x73f493ff800000020),(177,0x1ffcffffffffffffff,0x73f493ff800000020),(178,0x1ffcffffffffffffff,0x73f493ff800000020),(179,0x1ffcffffffffffffff,0x73f493ff800000020),(180,0x1ffcffffffffffffff,0x73f493ff800000020),(182,0x1ffcffffffffffffff,0x73f493ff800000020),(183,0x1ffcffffffffffffff,0x73f493ff800000020),(184,0x1ffcffffffffffffff,0x73f493ff800000020),(185,0x1ffcffffffffffffff,0x73f493ff800000020),(186,0x1ffcffffffffffffff,0x73f493ff800000020),(187,0x1ffcffffffffffffff,0x73f493ff800000020),(188,0x1ffcffffffffffffff,0x73f493ff800000020),(189,0x1ffcffffffffffffff,0x73f493ff800000020)]
  .l)))) [] (.n (.n (.n (.n (.n .l [] .l) [] .l)
  [(130,0x1fffffffffffffffff,0x163f49bff8929f6020),(131,0x1fffffffffffffffff,0x163f48bff8929f6020),(136,0x1fffffffffffffffff,0x1000008000929f6020),(148,0x1fffffffffffffffff,0x1000008000929f6020),(154,0x1fffffffffffffffff,0x163f49bff8929f6020),(155,0x1fffffffffffffffff,0x163f49bff8929f6020),(158,0x1fffffffffffffffff,0x163f49bff8929f6020),(161,0x1fffffffffffffffff,0x163f49bff8929f6020),(162,0x1fffffffffffffffff,0x163f49bff8929f6020),(163,0x1fffffffffffffffff,0x163f49bff8929f6020),(164,0x1fffffffffffffffff,0x163f49bff8929f6020),(165,0x1fffffffffffffffff,0x163f49bff8929f6020),(166,0x1fffffffffffffffff,0x163f49bff8929f6020),(167,0x1fffffffffffffffff,0x163f49bff8929f6020),(168,0x1fffffffffffffffff,0x163f49bff8929f6020),(169,0x1fffffffffffffffff,0x163f49bff8929f6020),(170,0x1fffffffffffffffff,0x163f49bff8929f6020),(171,0x1fffffffffffffffff,0x163f49bff8929f6020),(172,0x1fffffffffffffffff,0x163f49bff8929f6020),(173,0x1fffffffffffffffff,0x163f49bff8929f6020),(174,0x1fffffffffffffffff,0x163f49bff8929f6020),(175,0x1fffffffffffffffff,0x163f49bff8929f6020),(176,0x1fffffffffffffffff,0x163f49bff8929f6020),(177,0x1fffffffffffffffff,0x163f49bff8929f6020),(178,0x1fffffffffffffffff,0x163f49bff8929f6020),(179,0x1fffffffffffffffff,0x163f49bff8929f6020),(180,0x1fffffffffffffffff,0x163f49bff8929f6020),(181,0x1fffffffffffffffff,0x163f49bff8929f6020),(182,0x1fffffffffffffffff,0x163f49bff8929f6020),(183,0x1fffffffffffffffff,0x163f49bff8929f6020),(184,0x1fffffffffffffffff,0x163f49bff8929f6020),(185,0x1fffffffffffffffff,0x163f49bff8929f6020),(186,0x1fffffffffffffffff,0x163f49bff8929f6020),(187,0x1fffffffffffffffff,0x163f49bff8929f6020),(188,0x1fffffffffffffffff,0x163f49bff8929f6020),(189,0x1fffffffffffffffff,0x163f49bff8929f6020)]
  (.n .l [] .l))
  [(130,0x1fffffffffffffffff,0x1e3f49bff8929f6020),(131,0x1fffffffffffffffff,0x1e3f48bff8929f6020),(140,0x1fffffffffffffffff,0x1000008000929f6020),(154,0x1fffffffffffffffff,0x1e3f49bff8929f6020),(155,0x1fffffffffffffffff,0x1e3f49bff8929f6020),(158,0x1fffffffffffffffff,0x1e3f49bff8929f6020),(161,0x1fffffffffffffffff,0x1e3f49bff8929f6020),(162,0x1fffffffffffffffff,0x1e3f49bff8929f6020),(163,0x1fffffffffffffffff,0x1e3f49bff8929f6020),(164,0x1fffffffffffffffff,0x1e3f49bff8929f6020),(165,0x1fffffffffffffffff,0x1e3f49bff8929f6020),(166,0x1fffffffffffffffff,0x1e3f49bff8929f6020),(167,0x1fffffffffffffffff,0x1e3f49bff8929f6020),(168,0x1fffffffffffffffff,0x1e3f49bff8929f6020),(169,0x1fffffffffffffffff,0x1e3f49bff8929f6020),(170,0x1fffffffffffffffff,0x1e3f49bff8929f6020),(171,0x1fffffffffffffffff,0x1e3f49bff8929f6020),(172,0x1fffffffffffffffff,0x1e3f49bff8929f6020),(173,0x1fffffffffffffffff,0x1e3f49bff8929f6020),(174,0x1fffffffffffffffff,0x1e3f49bff8929f6020),(175,0x1fffffffffffffffff,0x1e3f49bff8929f6020),(176,0x1fffffffffffffffff,0x1e3f49bff8929f6020),(177,0x1fffffffffffffffff,0x1e3f49bff8929f6020),(178,0x1fffffffffffffffff,0x1e3f49bff8929f6020),(179,0x1fffffffffffffffff,0x1e3f49bff8929f6020),(180,0x1fffffffffffffffff,0x1e3f49bff8929f6020),(181,0x1fffffffffffffffff,0x1e3f49bff8929f6020),(182,0x1fffffffffffffffff,0x1e3f49bff8929f6020),(183,0x1fffffffffffffffff,0x1e3f49bff8929f6020),(184,0x1fffffffffffffffff,0x1e3f49bff8929f6020),(185,0x1fffffffffffffffff,0x1e3f49bff8929f6020),(186,0x1fffffffffffffffff,0x1e3f49bff8929f6020),(187,0x1fffffffffffffffff,0x1e3f49bff8929f6020),(188,0x1fffffffffffffffff,0x1e3f49bff8929f6020),(189,0x1fffffffffffffffff,0x1e3f49bff8929f6020)]
  (.n (.n (.n .l [] .l) [] .l)
  [(130,0x1fffffffffffffffff,0x1fffefbff89ebf6c7e),(131,0x1fffffffffffffffff,0x1fffefbff89ebf6c7e),(154,0x1fffffffffffffffff,0x1fffefbff89ebf6c7e),(155,0x1fffffffffffffffff,0x1fffefbff89ebf6c7e),(158,0x1fffffffffffffffff,0x1fffefbff89ebf6c7e),(161,0x1fffffffffffffffff,0x1fffefbff89ebf6c7e),(162,0x1fffffffffffffffff,0x1fffefbff89ebf6c7e),(163,0x1fffffffffffffffff,0x1fffefbff89ebf6c7e),(164,0x1fffffffffffffffff,0x1fffefbff89ebf6c7e),(165,0x1fffffffffffffffff,0x1fffefbff89ebf6c7e),(166,0x1fffffffffffffffff,0x1fffefbff89ebf6c7e),(167,0x1fffffffffffffffff,0x1fffefbff89ebf6c7e),(168,0x1fffffffffffffffff,0x1fffefbff89ebf6c7e),(169,0x1fffffffffffffffff,0x1fffefbff89ebf6c7e),(170,0x1fffffffffffffffff,0x1fffefbff89ebf6c7e),(171,0x1fffffffffffffffff,0x1fffefbff89ebf6c7e),(172,0x1fffffffffffffffff,0x1fffefbff89ebf6c7e),(173,0x1fffffffffffffffff,0x1fffefbff89ebf6c7e),(174,0x1fffffffffffffffff,0x1fffefbff89ebf6c7e),(175,0x1fffffffffffffffff,0x1fffefbff89ebf6c7e),(176,0x1fffffffffffffffff,0x1fffefbff89ebf6c7e),(177,0x1fffffffffffffffff,0x1fffefbff89ebf6c7e),(178,0x1fffffffffffffffff,0x1fffefbff89ebf6c7e),(179,0x1fffffffffffffffff,0x1fffefbff89ebf6c7e),(180,0x1fffffffffffffffff,0x1fffefbff89ebf6c7e),(181,0x1fffffffffffffffff,0x1fffefbff89ebf6c7e),(182,0x1fffffffffffffffff,0x1fffefbff89ebf6c7e),(183,0x1fffffffffffffffff,0x1fffefbff89ebf6c7e),(184,0x1fffffffffffffffff,0x1fffefbff89ebf6c7e),(185,0x1fffffffffffffffff,0x1fffefbff89ebf6c7e),(186,0x1fffffffffffffffff,0x1fffefbff89ebf6c7e),(187,0x1fffffffffffffffff,0x1fffefbff89ebf6c7e),(188,0x1fffffffffffffffff,0x1fffefbff89ebf6c7e),(189,0x1fffffffffffffffff,0x1fffefbff89ebf6c7e)]
  (.n .l [] .l)))
  [(141,0x1fffffffffffffffff,0x2010000000000000),(142,0x1fffffffffffffffff,0x2110000000000000),(143,0x1fffffffffffffffff,0x2110000000000000)]
  (.n (.n (.n (.n .l [] .l) [] .l) [] (.n .l [] .l)) [] (.n (.n .l [] .l)
  [(137,0x1fffffffffffffffff,0x1000008000929f6020),(148,0x1fffffffffffffffff,0x1000008000929f6020),(152,0x1fffffffffffffffff,0x1000008000929f6020),(155,0x1fffffffffffffffff,0x1000008000929f6020)]
  (.n .l [] .l))))))))
  [(128,0x1fffffffffffffffff,0x100000000000000000),(129,0x1fffffffffffffffff,0x1000008000929f6020),(159,0x1fffffffffffffffff,0x8000929a0000),(160,0x1fffffffffffffffff,0x929a0000),(190,0x1fffffffffffffffff,0x1000008000929f6020),(201,0x1fffffffffffffffff,0x8000929a0000)]
  (.n (.n (.n (.n (.n (.n (.n (.n (.n .l [] .l) [] .l) [] (.n .l [] .l))
  [(146,0x1fffffffffffffffff,0x10000000000000)] (.n (.n (.n .l
  [(130,0x1fffffffffffffffff,0x63f4b3ff800000000),(131,0x1fffffffffffffffff,0x63f4a3ff800000000),(154,0x1fffffffffffffffff,0x63f4b3ff800000000),(155,0x1fffffffffffffffff,0x63f4b3ff800000000),(158,0x1fffffffffffffffff,0x63f4b3ff800000000),(161,0x1fffffffffffffffff,0x63f4b3ff800000000),(162,0x1fffffffffffffffff,0x63f4b3ff800000000),(163,0x1fffffffffffffffff,0x63f4b3ff800000000),(164,0x1fffffffffffffffff,0x63f4b3ff800000000),(165,0x1fffffffffffffffff,0x63f4b3ff800000000),(166,0x1fffffffffffffffff,0x63f4b3ff800000000),(167,0x1fffffffffffffffff,0x63f4b3ff800000000),(168,0x1fffffffffffffffff,0x63f4b3ff800000000),(169,0x1fffffffffffffffff,0x63f4b3ff800000000),(170,0x1fffffffffffffffff,0x63f4b3ff800000000),(171,0x1fffffffffffffffff,0x63f4b3ff800000000),(172,0x1fffffffffffffffff,0x63f4b3ff800000000),(173,0x1fffffffffffffffff,0x63f4b3ff800000000),(174,0x1fffffffffffffffff,0x63f4b3ff800000000),(175,0x1fffffffffffffffff,0x63f4b3ff800000000),(176,0x1fffffffffffffffff,0x63f4b3ff800000000),(177,0x1fffffffffffffffff,0x63f4b3ff800000000),(178,0x1fffffffffffffffff,0x63f4b3ff800000000),(179,0x1fffffffffffffffff,0x63f4b3ff800000000),(180,0x1fffffffffffffffff,0x63f4b3ff800000000),(181,0x1fffffffffffffffff,0x63f4b3ff800000000),(182,0x1fffffffffffffffff,0x63f4b3ff800000000),(183,0x1fffffffffffffffff,0x63f4b3ff800000000),(184,0x1fffffffffffffffff,0x63f4b3ff800000000),(185,0x1fffffffffffffffff,0x63f4b3ff800000000),(186,0x1fffffffffffffffff,0x63f4b3ff800000000),(187,0x1fffffffffffffffff,0x63f4b3ff800000000),(188,0x1fffffffffffffffff,0x63f4b3ff800000000),(189,0x1fffffffffffffffff,0x63f4b3ff800000000)]
  .l) [] .l) [] (.n .l
  [(130,0x1fffffffffffffffff,0x6bf4d3ff800000000),(131,0x1fffffffffffffffff,0x6bf4c3ff800000000),(154,0x1fffffffffffffffff,0x6bf4d3ff800000000),(155,0x1fffffffffffffffff,0x6bf4d3ff800000000),(158,0x1fffffffffffffffff,0x6bf4d3ff800000000),(161,0x1fffffffffffffffff,0x6bf4d3ff800000000),(162,0x1fffffffffffffffff,0x6bf4d3ff800000000),(163,0x1fffffffffffffffff,0x6bf4d3ff800000000),(164,0x1fffffffffffffffff,0x6bf4d3ff800000000),(165,0x1fffffffffffffffff,0x6bf4d3ff800000000),(166,0x1fffffffffffffffff,0x6bf4d3ff800000000),(167,0x1fffffffffffffffff,0x6bf4d3ff800000000),(168,0x1fffffffffffffffff,0x6bf4d3ff800000000),(169,0x1fffffffffffffffff,0x6bf4d3ff800000000),(170,0x1fffffffffffffffff,0x6bf4d3ff800000000),(171,0x1fffffffffffffffff,0x6bf4d3ff800000000),(172,0x1fffffffffffffffff,0x6bf4d3ff800000000),(173,0x1fffffffffffffffff,0x6bf4d3ff800000000),(174,0x1fffffffffffffffff,0x6bf4d3ff800000000),(175,0x1fffffffffffffffff,0x6bf4d3ff800000000),(176,0x1fffffffffffffffff,0x6bf4d3ff800000000),(177,0x1fffffffffffffffff,0x6bf4d3ff800000000),(178,0x1fffffffffffffffff,0x6bf4d3ff800000000),(179,0x1fffffffffffffffff,0x6bf4d3ff800000000),(180,0x1fffffffffffffffff,0x6bf4d3ff800000000),(181,0x1fffffffffffffffff,0x6bf4d3ff800000000),(182,0x1fffffffffffffffff,0x6bf4d3ff800000000),(183,0x1fffffffffffffffff,0x6bf4d3ff800000000),(184,0x1fffffffffffffffff,0x6bf4d3ff800000000),(185,0x1fffffffffffffffff,0x6bf4d3ff800000000),(186,0x1fffffffffffffffff,0x6bf4d3ff800000000),(187,0x1fffffffffffffffff,0x6bf4d3ff800000000),(188,0x1fffffffffffffffff,0x6bf4d3ff800000000),(189,0x1fffffffffffffffff,0x6bf4d3ff800000000)]
  .l))) [] (.n (.n (.n (.n .l [] .l) [] .l)
  [(138,0x1fffffffffffffffff,0x1000008000929f6020),(148,0x1fffffffffffffffff,0x1000008000929f6020),(152,0x1fffffffffffffffff,0x1000008000929f6020),(155,0x1fffffffffffffffff,0x1000008000929f6020)]
  (.n .l [] .l)) [] (.n (.n (.n .l [] .l) [] .l)
  [(130,0x1fffffffffffffffff,0x1fffefbff89ebf6c7e),(131,0x1fffffffffffffffff,0x1fffefbff89ebf6c7e),(154,0x1fffffffffffffffff,0x1fffefbff89ebf6c7e),(155,0x1fffffffffffffffff,0x1fffefbff89ebf6c7e),(158,0x1fffffffffffffffff,0x1fffefbff89ebf6c7e),(161,0x1fffffffffffffffff,0x1fffefbff89ebf6c7e),(162,0x1fffffffffffffffff,0x1fffefbff89ebf6c7e),(163,0x1fffffffffffffffff,0x1fffefbff89ebf6c7e),(164,0x1fffffffffffffffff,0x1fffefbff89ebf6c7e),(165,0x1fffffffffffffffff,0x1fffefbff89ebf6c7e),(166,0x1fffffffffffffffff,0x1fffefbff89ebf6c7e),(167,0x1fffffffffffffffff,0x1fffefbff89ebf6c7e),(168,0x1fffffffffffffffff,0x1fffefbff89ebf6c7e),(169,0x1fffffffffffffffff,0x1fffefbff89ebf6c7e),(170,0x1fffffffffffffffff,0x1fffefbff89ebf6c7e),(171,0x1fffffffffffffffff,0x1fffefbff89ebf6c7e),(172,0x1fffffffffffffffff,0x1fffefbff89ebf6c7e),(173,0x1fffffffffffffffff,0x1fffefbff89ebf6c7e),(174,0x1fffffffffffffffff,0x1fffefbff89ebf6c7e),(175,0x1fffffffffffffffff,0x1fffefbff89ebf6c7e),(176,0x1fffffffffffffffff,0x1fffefbff89ebf6c7e),(177,0x1fffffffffffffffff,0x1fffefbff89ebf6c7e),(178,0x1fffffffffffffffff,0x1fffefbff89ebf6c7e),(179,0x1fffffffffffffffff,0x1fffefbff89ebf6c7e),(180,0x1fffffffffffffffff,0x1fffefbff89ebf6c7e),(181,0x1fffffffffffffffff,0x1fffefbff89ebf6c7e),(182,0x1fffffffffffffffff,0x1fffefbff89ebf6c7e),(183,0x1fffffffffffffffff,0x1fffefbff89ebf6c7e),(184,0x1fffffffffffffffff,0x1fffefbff89ebf6c7e),(185,0x1fffffffffffffffff,0x1fffefbff89ebf6c7e),(186,0x1fffffffffffffffff,0x1fffefbff89ebf6c7e),(187,0x1fffffffffffffffff,0x1fffefbff89ebf6c7e),(188,0x1fffffffffffffffff,0x1fffefbff89ebf6c7e),(189,0x1fffffffffffffffff,0x1fffefbff89ebf6c7e)]
  (.n .l [] .l)))) [(133,0x1fffffffffffffffff,0x1000008000929f6020)] (.n (.n (.n (.n (.n .l
  [(130,0x1fffffffffffffffff,0x1fffefbff89ebf6c7e),(131,0x1fffffffffffffffff,0x1fffefbff89ebf6c7e),(154,0x1fffffffffffffffff,0x1fffefbff89ebf6c7e),(155,0x1fffffffffffffffff,0x1fffefbff89ebf6c7e),(158,0x1fffffffffffffffff,0x1fffefbff89ebf6c7e),(161,0x1fffffffffffffffff,0x1fffefbff89ebf6c7e),(162,0x1fffffffffffffffff,0x1fffefbff89ebf6c7e),(163,0x1fffffffffffffffff,0x1fffefbff89ebf6c7e),(164,0x1fffffffffffffffff,0x1fffefbff89ebf6c7e),(165,0x1fffffffffffffffff,0x1fffefbff89ebf6c7e),(166,0x1fffffffffffffffff,0x1fffefbff89ebf6c7e),(167,0x1fffffffffffffffff,0x1fffefbff89ebf6c7e),(168,0x1fffffffffffffffff,0x1fffefbff89ebf6c7e),(169,0x1fffffffffffffffff,0x1fffefbff89ebf6c7e),(170,0x1fffffffffffffffff,0x1fffefbff89ebf6c7e),(171,0x1fffffffffffffffff,0x1fffefbff89ebf6c7e),(172,0x1fffffffffffffffff,0x1fffefbff89ebf6c7e),(173,0x1fffffffffffffffff,0x1fffefbff89ebf6c7e),(174,0x1fffffffffffffffff,0x1fffefbff89ebf6c7e),(175,0x1fffffffffffffffff,0x1fffefbff89ebf6c7e),(176,0x1fffffffffffffffff,0x1fffefbff89ebf6c7e),(177,0x1fffffffffffffffff,0x1fffefbff89ebf6c7e),(178,0x1fffffffffffffffff,0x1fffefbff89ebf6c7e),(179,0x1fffffffffffffffff,0x1fffefbff89ebf6c7e),(180,0x1fffffffffffffffff,0x1fffefbff89ebf6c7e),(181,0x1fffffffffffffffff,0x1fffefbff89ebf6c7e),(182,0x1fffffffffffffffff,0x1fffefbff89ebf6c7e),(183,0x1fffffffffffffffff,0x1fffefbff89ebf6c7e),(184,0x1fffffffffffffffff,0x1fffefbff89ebf6c7e),(185,0x1fffffffffffffffff,0x1fffefbff89ebf6c7e),(186,0x1fffffffffffffffff,0x1fffefbff89ebf6c7e),(187,0x1fffffffffffffffff,0x1fffefbff89ebf6c7e),(188,0x1fffffffffffffffff,0x1fffefbff89ebf6c7e),(189,0x1fffffffffffffffff,0x1fffefbff89ebf6c7e)]
  .l) [] .l) [] (.n .l [] .l))
  [(130,0x1fffffffffffffffff,0x6bf493ff800000020),(131,0x1fffffffffffffffff,0x6bf483ff800000020),(154,0x1fffffffffffffffff,0x6bf493ff800000020),(155,0x1fffffffffffffffff,0x6bf493ff800000020),(158,0x1fffffffffffffffff,0x6bf493ff800000020),(161,0x1fffffffffffffffff,0x6bf493ff800000020),(162,0x1fffffffffffffffff,0x6bf493ff800000020),(163,0x1fffffffffffffffff,0x6bf493ff800000020),(164,0x1fffffffffffffffff,0x6bf493ff800000020),(165,0x1fffffffffffffffff,0x6bf493ff800000020),(166,0x1fffffffffffffffff,0x6bf493ff800000020),(167,0x1fffffffffffffffff,0x6bf493ff800000020),(168,0x1fffffffffffffffff,0x6bf493ff800000020),(169,0x1fffffffffffffffff,0x6bf493ff800000020),(170,0x1fffffffffffffffff,0x6bf493ff800000020),(171,0x1fffffffffffffffff,0x6bf493ff800000020),(172,0x1fffffffffffffffff,0x6bf493ff800000020),(173,0x1fffffffffffffffff,0x6bf493ff800000020),(174,0x1fffffffffffffffff,0x6bf493ff800000020),(175,0x1fffffffffffffffff,0x6bf493ff800000020),(176,0x1fffffffffffffffff,0x6bf493ff800000020),(177,0x1fffffffffffffffff,0x6bf493ff800000020),(178,0x1fffffffffffffffff,0x6bf493ff800000020),(179,0x1fffffffffffffffff,0x6bf493ff800000020),(180,0x1fffffffffffffffff,0x6bf493ff800000020),(181,0x1fffffffffffffffff,0x6bf493ff800000020),(182,0x1fffffffffffffffff,0x6bf493ff800000020),(183,0x1fffffffffffffffff,0x6bf493ff800000020),(184,0x1fffffffffffffffff,0x6bf493ff800000020),(185,0x1fffffffffffffffff,0x6bf493ff800000020),(186,0x1fffffffffffffffff,0x6bf493ff800000020),(187,0x1fffffffffffffffff,0x6bf493ff800000020),(188,0x1fffffffffffffffff,0x6bf493ff800000020),(189,0x1fffffffffffffffff,0x6bf493ff800000020)]
  (.n (.n (.n .l [] .l) [] .l)
  [(130,0x1fffffffffffffffff,0x1fffefbff89ebf6c7e),(131,0x1fffffffffffffffff,0x1fffefbff89ebf6c7e),(154,0x1fffffffffffffffff,0x1fffefbff89ebf6c7e),(155,0x1fffffffffffffffff,0x1fffefbff89ebf6c7e),(158,0x1fffffffffffffffff,0x1fffefbff89ebf6c7e),(161,0x1fffffffffffffffff,0x1fffefbff89ebf6c7e),(162,0x1fffffffffffffffff,0x1fffefbff89ebf6c7e),(163,0x1fffffffffffffffff,0x1fffefbff89ebf6c7e),(164,0x1fffffffffffffffff,0x1fffefbff89ebf6c7e),(165,0x1fffffffffffffffff,0x1fffefbff89ebf6c7e),(166,0x1fffffffffffffffff,0x1fffefbff89ebf6c7e),(167,0x1fffffffffffffffff,0x1fffefbff89ebf6c7e),(168,0x1fffffffffffffffff,0x1fffefbff89ebf6c7e),(169,0x1fffffffffffffffff,0x1fffefbff89ebf6c7e),(170,0x1fffffffffffffffff,0x1fffefbff89ebf6c7e),(171,0x1fffffffffffffffff,0x1fffefbff89ebf6c7e),(172,0x1fffffffffffffffff,0x1fffefbff89ebf6c7e),(173,0x1fffffffffffffffff,0x1fffefbff89ebf6c7e),(174,0x1fffffffffffffffff,0x1fffefbff89ebf6c7e),(175,0x1fffffffffffffffff,0x1fffefbff89ebf6c7e),(176,0x1fffffffffffffffff,0x1fffefbff89ebf6c7e),(177,0x1fffffffffffffffff,0x1fffefbff89ebf6c7e),(178,0x1fffffffffffffffff,0x1fffefbff89ebf6c7e),(179,0x1fffffffffffffffff,0x1fffefbff89ebf6c7e),(180,0x1fffffffffffffffff,0x1fffefbff89ebf6c7e),(181,0x1fffffffffffffffff,0x1fffefbff89ebf6c7e),(182,0x1fffffffffffffffff,0x1fffefbff89ebf6c7e),(183,0x1fffffffffffffffff,0x1fffefbff89ebf6c7e),(184,0x1fffffffffffffffff,0x1fffefbff89ebf6c7e),(185,0x1fffffffffffffffff,0x1fffefbff89ebf6c7e),(186,0x1fffffffffffffffff,0x1fffefbff89ebf6c7e),(187,0x1fffffffffffffffff,0x1fffefbff89ebf6c7e),(188,0x1fffffffffffffffff,0x1fffefbff89ebf6c7e),(189,0x1fffffffffffffffff,0x1fffefbff89ebf6c7e)]
  (.n .l [] .l))) [] (.n (.n (.n (.n .l [] .l) [] .l) [] (.n .l [] .l))
  [(130,0x1fffffffffffffffff,0x73fed3ff80c200c3e),(131,0x1fffffffffffffffff,0x73fed3ff80c200c3e),(154,0x1fffffffffffffffff,0x73fed3ff80c200c3e),(155,0x1fffffffffffffffff,0x73fed3ff80c200c3e),(158,0x1fffffffffffffffff,0x73fed3ff80c200c3e),(161,0x1fffffffffffffffff,0x73fed3ff80c200c3e),(162,0x1fffffffffffffffff,0x73fed3ff80c200c3e),(163,0x1fffffffffffffffff,0x73fed3ff80c200c3e),(164,0x1fffffffffffffffff,0x73fed3ff80c200c3e),(165,0x1fffffffffffffffff,0x73fed3ff80c200c3e),(166,0x1fffffffffffffffff,0x73fed3ff80c200c3e),(167,0x1fffffffffffffffff,0x73fed3ff80c200c3e),(168,0x1fffffffffffffffff,0x73fed3ff80c200c3e),(169,0x1fffffffffffffffff,0x73fed3ff80c200c3e),(170,0x1fffffffffffffffff,0x73fed3ff80c200c3e),(171,0x1fffffffffffffffff,0x73fed3ff80c200c3e),(172,0x1fffffffffffffffff,0x73fed3ff80c200c3e),(173,0x1fffffffffffffffff,0x73fed3ff80c200c3e),(174,0x1fffffffffffffffff,0x73fed3ff80c200c3e),(175,0x1fffffffffffffffff,0x73fed3ff80c200c3e),(176,0x1fffffffffffffffff,0x73fed3ff80c200c3e),(177,0x1fffffffffffffffff,0x73fed3ff80c200c3e),(178,0x1fffffffffffffffff,0x73fed3ff80c200c3e),(179,0x1fffffffffffffffff,0x73fed3ff80c200c3e),(180,0x1fffffffffffffffff,0x73fed3ff80c200c3e),(181,0x1fffffffffffffffff,0x73fed3ff80c200c3e),(182,0x1fffffffffffffffff,0x73fed3ff80c200c3e),(183,0x1fffffffffffffffff,0x73fed3ff80c200c3e),(184,0x1fffffffffffffffff,0x73fed3ff80c200c3e),(185,0x1fffffffffffffffff,0x73fed3ff80c200c3e),(186,0x1fffffffffffffffff,0x73fed3ff80c200c3e),(187,0x1fffffffffffffffff,0x73fed3ff80c200c3e),(188,0x1fffffffffffffffff,0x73fed3ff80c200c3e),(189,0x1fffffffffffffffff,0x73fed3ff80c200c3e),(193,0x1fffffffffffffffff,0x103a100000c200c3e),(198,0x1fffffffffffffffff,0x103a100000c200c1e)]
  (.n (.n .l [] .l) [] (.n .l [] .l))))) [] (.n (.n (.n (.n (.n (.n .l [] .l) [] .l) [] (.n .l []
  .l))
  [(130,0x1fffffffffffffffff,0x163f49bff8929f6020),(131,0x1fffffffffffffffff,0x163f48bff8929f6020),(134,0x1fffffffffffffffff,0x1000008000929f6020),(148,0x1fffffffffffffffff,0x1000008000929f6020),(154,0x1fffffffffffffffff,0x163f49bff8929f6020),(155,0x1fffffffffffffffff,0x163f49bff8929f6020),(158,0x1fffffffffffffffff,0x163f49bff8929f6020),(161,0x1fffffffffffffffff,0x163f49bff8929f6020),(162,0x1fffffffffffffffff,0x163f49bff8929f6020),(163,0x1fffffffffffffffff,0x163f49bff8929f6020),(164,0x1fffffffffffffffff,0x163f49bff8929f6020),(165,0x1fffffffffffffffff,0x163f49bff8929f6020),(166,0x1fffffffffffffffff,0x163f49bff8929f6020),(167,0x1fffffffffffffffff,0x163f49bff8929f6020),(168,0x1fffffffffffffffff,0x163f49bff8929f6020),(169,0x1fffffffffffffffff,0x163f49bff8929f6020),(170,0x1fffffffffffffffff,0x163f49bff8929f6020),(171,0x1fffffffffffffffff,0x163f49bff8929f6020),(172,0x1fffffffffffffffff,0x163f49bff8929f6020),(173,0x1fffffffffffffffff,0x163f49bff8929f6020),(174,0x1fffffffffffffffff,0x163f49bff8929f6020),(175,0x1fffffffffffffffff,0x163f49bff8929f6020),(176,0x1fffffffffffffffff,0x163f49bff8929f6020),(177,0x1fffffffffffffffff,0x163f49bff8929f6020),(178,0x1fffffffffffffffff,0x163f49bff8929f6020),(179,0x1fffffffffffffffff,0x163f49bff8929f6020),(180,0x1fffffffffffffffff,0x163f49bff8929f6020),(181,0x1fffffffffffffffff,0x163f49bff8929f6020),(182,0x1fffffffffffffffff,0x163f49bff8929f6020),(183,0x1fffffffffffffffff,0x163f49bff8929f6020),(184,0x1fffffffffffffffff,0x163f49bff8929f6020),(185,0x1fffffffffffffffff,0x163f49bff8929f6020),(186,0x1fffffffffffffffff,0x163f49bff8929f6020),(187,0x1fffffffffffffffff,0x163f49bff8929f6020),(188,0x1fffffffffffffffff,0x163f49bff8929f6020),(189,0x1fffffffffffffffff,0x163f49bff8929f6020)]
  (.n (.n (.n .l [] .l) [] .l) [] (.n .l
  [(130,0x1ffcffffffffffffff,0x73f493ff800000020),(131,0x1ffcffffffffffffff,0x73f483ff800000020),(155,0x1ffcffffffffffffff,0x73f493ff800000020),(158,0x1ffcffffffffffffff,0x73f493ff800000020),(161,0x1ffcffffffffffffff,0x73f493ff800000020),(162,0x1ffcffffffffffffff,0x73f493ff800000020),(163,0x1ffcffffffffffffff,0x73f493ff800000020),(164,0x1ffcffffffffffffff,0x73f493ff800000020),(165,0x1ffcffffffffffffff,0x73f493ff800000020),(166,0x1ffcffffffffffffff,0x73f493ff800000020),(167,0x1ffcffffffffffffff,0x73f493ff800000020),(168,0x1ffcffffffffffffff,0x73f493ff800000020),(169,0x1ffcffffffffffffff,0x73f493ff800000020),(170,0x1ffcffffffffffffff,0x73f493ff800000020),(171,0x1ffcffffffffffffff,0x73f493ff800000020),(172,0x1ffcffffffffffffff,0x73f493ff800000020),(173,0x1ffcffffffffffffff,0x73f493ff800000020),(174,0x1ffcffffffffffffff,0x73f493ff800000020),(175,0x1ffcffffffffffffff,0x73f493ff800000020),(176,0x1ffcffffffffffffff,0x73f493ff800000020),(177,0x1ffcffffffffffffff,0x73f493ff800000020),(178,0x1ffcffffffffffffff,0x73f493ff800000020),(179,0x1ffcffffffffffffff,0x73f493ff800000020),(180,0x1ffcffffffffffffff,0x73f493ff800000020),(182,0x1ffcffffffffffffff,0x73f493ff800000020),(183,0x1ffcffffffffffffff,0x73f493ff800000020),(184,0x1ffcffffffffffffff,0x73f493ff800000020),(185,0x1ffcffffffffffffff,0x73f493ff800000020),(186,0x1ffcffffffffffffff,0x73f493ff800000020),(187,0x1ffcffffffffffffff,0x73f493ff800000020),(188,0x1ffcffffffffffffff,0x73f493ff800000020),(189,0x1ffcffffffffffffff,0x73f493ff800000020)]
  .l)))
  [(141,0x1fffffffffffffffff,0x1020108000929f6020),(142,0x1fffffffffffffffff,0x1021108000929f6020),(143,0x1fffffffffffffffff,0x1021108000929f6020)]
  (.n (.n (.n (.n .l [] .l) [] .l) [] (.n .l [] .l))
  [(196,0x1fffffffffffffffff,0x88000000000000000)] (.n (.n (.n .l [] .l)
  [(130,0x1fffffffffffffffff,0x6bf493ff800000000),(131,0x1fffffffffffffffff,0x6bf483ff800000000),(154,0x1fffffffffffffffff,0x6bf493ff800000000),(155,0x1fffffffffffffffff,0x6bf493ff800000000),(158,0x1fffffffffffffffff,0x6bf493ff800000000),(161,0x1fffffffffffffffff,0x6bf493ff800000000),(162,0x1fffffffffffffffff,0x6bf493ff800000000),(163,0x1fffffffffffffffff,0x6bf493ff800000000),(164,0x1fffffffffffffffff,0x6bf493ff800000000),(165,0x1fffffffffffffffff,0x6bf493ff800000000),(166,0x1fffffffffffffffff,0x6bf493ff800000000),(167,0x1fffffffffffffffff,0x6bf493ff800000000),(168,0x1fffffffffffffffff,0x6bf493ff800000000),(169,0x1fffffffffffffffff,0x6bf493ff800000000),(170,0x1fffffffffffffffff,0x6bf493ff800000000),(171,0x1fffffffffffffffff,0x6bf493ff800000000),(172,0x1fffffffffffffffff,0x6bf493ff800000000),(173,0x1fffffffffffffffff,0x6bf493ff800000000),(174,0x1fffffffffffffffff,0x6bf493ff800000000),(175,0x1fffffffffffffffff,0x6bf493ff800000000),(176,0x1fffffffffffffffff,0x6bf493ff800000000),(177,0x1fffffffffffffffff,0x6bf493ff800000000),(178,0x1fffffffffffffffff,0x6bf493ff800000000),(179,0x1fffffffffffffffff,0x6bf493ff800000000),(180,0x1fffffffffffffffff,0x6bf493ff800000000),(181,0x1fffffffffffffffff,0x6bf493ff800000000),(182,0x1fffffffffffffffff,0x6bf493ff800000000),(183,0x1fffffffffffffffff,0x6bf493ff800000000),(184,0x1fffffffffffffffff,0x6bf493ff800000000),(185,0x1fffffffffffffffff,0x6bf493ff800000000),(186,0x1fffffffffffffffff,0x6bf493ff800000000),(187,0x1fffffffffffffffff,0x6bf493ff800000000),(188,0x1fffffffffffffffff,0x6bf493ff800000000),(189,0x1fffffffffffffffff,0x6bf493ff800000000)]
  .l)
  [(130,0x1fffffffffffffffff,0x73fed3ff80c200c3e),(131,0x1fffffffffffffffff,0x73fed3ff80c200c3e),(154,0x1fffffffffffffffff,0x73fed3ff80c200c3e),(155,0x1fffffffffffffffff,0x73fed3ff80c200c3e),(158,0x1fffffffffffffffff,0x73fed3ff80c200c3e),(161,0x1fffffffffffffffff,0x73fed3ff80c200c3e),(162,0x1fffffffffffffffff,0x73fed3ff80c200c3e),(163,0x1fffffffffffffffff,0x73fed3ff80c200c3e),(164,0x1fffffffffffffffff,0x73fed3ff80c200c3e),(165,0x1fffffffffffffffff,0x73fed3ff80c200c3e),(166,0x1fffffffffffffffff,0x73fed3ff80c200c3e),(167,0x1fffffffffffffffff,0x73fed3ff80c200c3e),(168,0x1fffffffffffffffff,0x73fed3ff80c200c3e),(169,0x1fffffffffffffffff,0x73fed3ff80c200c3e),(170,0x1fffffffffffffffff,0x73fed3ff80c200c3e),(171,0x1fffffffffffffffff,0x73fed3ff80c200c3e),(172,0x1fffffffffffffffff,0x73fed3ff80c200c3e),(173,0x1fffffffffffffffff,0x73fed3ff80c200c3e),(174,0x1fffffffffffffffff,0x73fed3ff80c200c3e),(175,0x1fffffffffffffffff,0x73fed3ff80c200c3e),(176,0x1fffffffffffffffff,0x73fed3ff80c200c3e),(177,0x1fffffffffffffffff,0x73fed3ff80c200c3e),(178,0x1fffffffffffffffff,0x73fed3ff80c200c3e),(179,0x1fffffffffffffffff,0x73fed3ff80c200c3e),(180,0x1fffffffffffffffff,0x73fed3ff80c200c3e),(181,0x1fffffffffffffffff,0x73fed3ff80c200c3e),(182,0x1fffffffffffffffff,0x73fed3ff80c200c3e),(183,0x1fffffffffffffffff,0x73fed3ff80c200c3e),(184,0x1fffffffffffffffff,0x73fed3ff80c200c3e),(185,0x1fffffffffffffffff,0x73fed3ff80c200c3e),(186,0x1fffffffffffffffff,0x73fed3ff80c200c3e),(187,0x1fffffffffffffffff,0x73fed3ff80c200c3e),(188,0x1fffffffffffffffff,0x73fed3ff80c200c3e),(189,0x1fffffffffffffffff,0x73fed3ff80c200c3e),(198,0x1fffffffffffffffff,0x103a100000c200c1e)]
  (.n .l [] .l)))) [] (.n (.n (.n (.n (.n .l [] .l)
  [(193,0x1fffffffffffffffff,0x4000000000020074),(199,0x1fffffffffffffffff,0x4004000000020074)]
  .l) [] (.n .l [] .l)) [] (.n (.n (.n .l [] .l) [] .l)
  [(130,0x1fffffffffffffffff,0x1fffefbff89ebf6c7e),(131,0x1fffffffffffffffff,0x1fffefbff89ebf6c7e),(154,0x1fffffffffffffffff,0x1fffefbff89ebf6c7e),(155,0x1fffffffffffffffff,0x1fffefbff89ebf6c7e),(158,0x1fffffffffffffffff,0x1fffefbff89ebf6c7e),(161,0x1fffffffffffffffff,0x1fffefbff89ebf6c7e),(162,0x1fffffffffffffffff,0x1fffefbff89ebf6c7e),(163,0x1fffffffffffffffff,0x1fffefbff89ebf6c7e),(164,0x1fffffffffffffffff,0x1fffefbff89ebf6c7e),(165,0x1fffffffffffffffff,0x1fffefbff89ebf6c7e),(166,0x1fffffffffffffffff,0x1fffefbff89ebf6c7e),(167,0x1fffffffffffffffff,0x1fffefbff89ebf6c7e),(168,0x1fffffffffffffffff,0x1fffefbff89ebf6c7e),(169,0x1fffffffffffffffff,0x1fffefbff89ebf6c7e),(170,0x1fffffffffffffffff,0x1fffefbff89ebf6c7e),(171,0x1fffffffffffffffff,0x1fffefbff89ebf6c7e),(172,0x1fffffffffffffffff,0x1fffefbff89ebf6c7e),(173,0x1fffffffffffffffff,0x1fffefbff89ebf6c7e),(174,0x1fffffffffffffffff,0x1fffefbff89ebf6c7e),(175,0x1fffffffffffffffff,0x1fffefbff89ebf6c7e),(176,0x1fffffffffffffffff,0x1fffefbff89ebf6c7e),(177,0x1fffffffffffffffff,0x1fffefbff89ebf6c7e),(178,0x1fffffffffffffffff,0x1fffefbff89ebf6c7e),(179,0x1fffffffffffffffff,0x1fffefbff89ebf6c7e),(180,0x1fffffffffffffffff,0x1fffefbff89ebf6c7e),(181,0x1fffffffffffffffff,0x1fffefbff89ebf6c7e),(182,0x1fffffffffffffffff,0x1fffefbff89ebf6c7e),(183,0x1fffffffffffffffff,0x1fffefbff89ebf6c7e),(184,0x1fffffffffffffffff,0x1fffefbff89ebf6c7e),(185,0x1fffffffffffffffff,0x1fffefbff89ebf6c7e),(186,0x1fffffffffffffffff,0x1fffefbff89ebf6c7e),(187,0x1fffffffffffffffff,0x1fffefbff89ebf6c7e),(188,0x1fffffffffffffffff,0x1fffefbff89ebf6c7e),(189,0x1fffffffffffffffff,0x1fffefbff89ebf6c7e)]
  (.n .l
  [(141,0x1fffffffffffffffff,0x8004000000000000),(142,0x1fffffffffffffffff,0x8104000000000000),(143,0x1fffffffffffffffff,0x8104000000000000)]
  .l))) [] (.n (.n (.n (.n .l [] .l) [] .l) [] (.n .l [] .l)) [] (.n (.n .l [] .l) [] (.n .l []
  .l)))))) [] (.n (.n (.n (.n (.n (.n (.n .l [] .l) [] .l) [] (.n .l [] .l)) [] (.n (.n (.n .l []
  .l) [] .l)
  [(138,0x1fffffffffffffffff,0x1000008000929f6020),(148,0x1fffffffffffffffff,0x1000008000929f6020),(152,0x1fffffffffffffffff,0x1000008000929f6020),(155,0x1fffffffffffffffff,0x1000008000929f6020)]
  (.n .l
  [(130,0x1fffffffffffffffff,0x73fe93ff80c200c3e),(131,0x1fffffffffffffffff,0x73fe93ff80c200c3e),(154,0x1fffffffffffffffff,0x73fe93ff80c200c3e),(155,0x1fffffffffffffffff,0x73fe93ff80c200c3e),(158,0x1fffffffffffffffff,0x73fe93ff80c200c3e),(161,0x1fffffffffffffffff,0x73fe93ff80c200c3e),(162,0x1fffffffffffffffff,0x73fe93ff80c200c3e),(163,0x1fffffffffffffffff,0x73fe93ff80c200c3e),(164,0x1fffffffffffffffff,0x73fe93ff80c200c3e),(165,0x1fffffffffffffffff,0x73fe93ff80c200c3e),(166,0x1fffffffffffffffff,0x73fe93ff80c200c3e),(167,0x1fffffffffffffffff,0x73fe93ff80c200c3e),(168,0x1fffffffffffffffff,0x73fe93ff80c200c3e),(169,0x1fffffffffffffffff,0x73fe93ff80c200c3e),(170,0x1fffffffffffffffff,0x73fe93ff80c200c3e),(171,0x1fffffffffffffffff,0x73fe93ff80c200c3e),(172,0x1fffffffffffffffff,0x73fe93ff80c200c3e),(173,0x1fffffffffffffffff,0x73fe93ff80c200c3e),(174,0x1fffffffffffffffff,0x73fe93ff80c200c3e),(175,0x1fffffffffffffffff,0x73fe93ff80c200c3e),(176,0x1fffffffffffffffff,0x73fe93ff80c200c3e),(177,0x1fffffffffffffffff,0x73fe93ff80c200c3e),(178,0x1fffffffffffffffff,0x73fe93ff80c200c3e),(179,0x1fffffffffffffffff,0x73fe93ff80c200c3e),(180,0x1fffffffffffffffff,0x73fe93ff80c200c3e),(181,0x1fffffffffffffffff,0x73fe93ff80c200c3e),(182,0x1fffffffffffffffff,0x73fe93ff80c200c3e),(183,0x1fffffffffffffffff,0x73fe93ff80c200c3e),(184,0x1fffffffffffffffff,0x73fe93ff80c200c3e),(185,0x1fffffffffffffffff,0x73fe93ff80c200c3e),(186,0x1fffffffffffffffff,0x73fe93ff80c200c3e),(187,0x1fffffffffffffffff,0x73fe93ff80c200c3e),(188,0x1fffffffffffffffff,0x73fe93ff80c200c3e),(189,0x1fffffffffffffffff,0x73fe93ff80c200c3e)]
  .l))) [] (.n (.n (.n (.n .l [] .l) [] .l)
  [(141,0x1fffffffffffffffff,0x8004000000000000),(142,0x1fffffffffffffffff,0x8104000000000000),(143,0x1fffffffffffffffff,0x8104000000000000)]
  (.n .l [] .l))
  [(130,0x1fffffffffffffffff,0x163f49bff8929f6020),(131,0x1fffffffffffffffff,0x163f48bff8929f6020),(154,0x1fffffffffffffffff,0x163f49bff8929f6020),(155,0x1fffffffffffffffff,0x163f49bff8929f6020),(158,0x1fffffffffffffffff,0x163f49bff8929f6020),(161,0x1fffffffffffffffff,0x163f49bff8929f6020),(162,0x1fffffffffffffffff,0x163f49bff8929f6020),(163,0x1fffffffffffffffff,0x163f49bff8929f6020),(164,0x1fffffffffffffffff,0x163f49bff8929f6020),(165,0x1fffffffffffffffff,0x163f49bff8929f6020),(166,0x1fffffffffffffffff,0x163f49bff8929f6020),(167,0x1fffffffffffffffff,0x163f49bff8929f6020),(168,0x1fffffffffffffffff,0x163f49bff8929f6020),(169,0x1fffffffffffffffff,0x163f49bff8929f6020),(170,0x1fffffffffffffffff,0x163f49bff8929f6020),(171,0x1fffffffffffffffff,0x163f49bff8929f6020),(172,0x1fffffffffffffffff,0x163f49bff8929f6020),(173,0x1fffffffffffffffff,0x163f49bff8929f6020),(174,0x1fffffffffffffffff,0x163f49bff8929f6020),(175,0x1fffffffffffffffff,0x163f49bff8929f6020),(176,0x1fffffffffffffffff,0x163f49bff8929f6020),(177,0x1fffffffffffffffff,0x163f49bff8929f6020),(178,0x1fffffffffffffffff,0x163f49bff8929f6020),(179,0x1fffffffffffffffff,0x163f49bff8929f6020),(180,0x1fffffffffffffffff,0x163f49bff8929f6020),(181,0x1fffffffffffffffff,0x163f49bff8929f6020),(182,0x1fffffffffffffffff,0x163f49bff8929f6020),(183,0x1fffffffffffffffff,0x163f49bff8929f6020),(184,0x1fffffffffffffffff,0x163f49bff8929f6020),(185,0x1fffffffffffffffff,0x163f49bff8929f6020),(186,0x1fffffffffffffffff,0x163f49bff8929f6020),(187,0x1fffffffffffffffff,0x163f49bff8929f6020),(188,0x1fffffffffffffffff,0x163f49bff8929f6020),(189,0x1fffffffffffffffff,0x163f49bff8929f6020)]
  (.n (.n (.n .l [] .l) [] .l) [] (.n .l [(193,0x1fffffffffffffffff,0x4000000000020074)] .l)))) []
  (.n (.n (.n (.n (.n .l [] .l) [] .l) [] (.n .l [] .l)) [] (.n (.n (.n .l [] .l) [] .l)
  [(130,0x1fffffffffffffffff,0x1fffefbff89ebf6c7e),(131,0x1fffffffffffffffff,0x1fffefbff89ebf6c7e),(154,0x1fffffffffffffffff,0x1fffefbff89ebf6c7e),(155,0x1fffffffffffffffff,0x1fffefbff89ebf6c7e),(158,0x1fffffffffffffffff,0x1fffefbff89ebf6c7e),(161,0x1fffffffffffffffff,0x1fffefbff89ebf6c7e),(162,0x1fffffffffffffffff,0x1fffefbff89ebf6c7e),(163,0x1fffffffffffffffff,0x1fffefbff89ebf6c7e),(164,0x1fffffffffffffffff,0x1fffefbff89ebf6c7e),(165,0x1fffffffffffffffff,0x1fffefbff89ebf6c7e),(166,0x1fffffffffffffffff,0x1fffefbff89ebf6c7e),(167,0x1fffffffffffffffff,0x1fffefbff89ebf6c7e),(168,0x1fffffffffffffffff,0x1fffefbff89ebf6c7e),(169,0x1fffffffffffffffff,0x1fffefbff89ebf6c7e),(170,0x1fffffffffffffffff,0x1fffefbff89ebf6c7e),(171,0x1fffffffffffffffff,0x1fffefbff89ebf6c7e),(172,0x1fffffffffffffffff,0x1fffefbff89ebf6c7e),(173,0x1fffffffffffffffff,0x1fffefbff89ebf6c7e),(174,0x1fffffffffffffffff,0x1fffefbff89ebf6c7e),(175,0x1fffffffffffffffff,0x1fffefbff89ebf6c7e),(176,0x1fffffffffffffffff,0x1fffefbff89ebf6c7e),(177,0x1fffffffffffffffff,0x1fffefbff89ebf6c7e),(178,0x1fffffffffffffffff,0x1fffefbff89ebf6c7e),(179,0x1fffffffffffffffff,0x1fffefbff89ebf6c7e),(180,0x1fffffffffffffffff,0x1fffefbff89ebf6c7e),(181,0x1fffffffffffffffff,0x1fffefbff89ebf6c7e),(182,0x1fffffffffffffffff,0x1fffefbff89ebf6c7e),(183,0x1fffffffffffffffff,0x1fffefbff89ebf6c7e),(184,0x1fffffffffffffffff,0x1fffefbff89ebf6c7e),(185,0x1fffffffffffffffff,0x1fffefbff89ebf6c7e),(186,0x1fffffffffffffffff,0x1fffefbff89ebf6c7e),(187,0x1fffffffffffffffff,0x1fffefbff89ebf6c7e),(188,0x1fffffffffffffffff,0x1fffefbff89ebf6c7e),(189,0x1fffffffffffffffff,0x1fffefbff89ebf6c7e)]
  (.n .l [] .l))) [(191,0x1fffffffffffffffff,0x4004000000000000)] (.n (.n (.n (.n .l [] .l) [] .l)
  [] (.n .l [] .l)) [] (.n (.n .l [] .l) [] (.n .l [] .l))))) [] (.n (.n (.n (.n (.n (.n .l
  [(193,0x1fffffffffffffffff,0x4000000000020074)] .l) [] .l) [] (.n .l [] .l)) [] (.n (.n (.n .l
  [] .l) [] .l)
  [(130,0x1fffffffffffffffff,0x163f49bff8929f6020),(131,0x1fffffffffffffffff,0x163f48bff8929f6020),(134,0x1fffffffffffffffff,0x1000008000929f6020),(148,0x1fffffffffffffffff,0x1000008000929f6020),(154,0x1fffffffffffffffff,0x163f49bff8929f6020),(155,0x1fffffffffffffffff,0x163f49bff8929f6020),(158,0x1fffffffffffffffff,0x163f49bff8929f6020),(161,0x1fffffffffffffffff,0x163f49bff8929f6020),(162,0x1fffffffffffffffff,0x163f49bff8929f6020),(163,0x1fffffffffffffffff,0x163f49bff8929f6020),(164,0x1fffffffffffffffff,0x163f49bff8929f6020),(165,0x1fffffffffffffffff,0x163f49bff8929f6020),(166,0x1fffffffffffffffff,0x163f49bff8929f6020),(167,0x1fffffffffffffffff,0x163f49bff8929f6020),(168,0x1fffffffffffffffff,0x163f49bff8929f6020),(169,0x1fffffffffffffffff,0x163f49bff8929f6020),(170,0x1fffffffffffffffff,0x163f49bff8929f6020),(171,0x1fffffffffffffffff,0x163f49bff8929f6020),(172,0x1fffffffffffffffff,0x163f49bff8929f6020),(173,0x1fffffffffffffffff,0x163f49bff8929f6020),(174,0x1fffffffffffffffff,0x163f49bff8929f6020),(175,0x1fffffffffffffffff,0x163f49bff8929f6020),(176,0x1fffffffffffffffff,0x163f49bff8929f6020),(177,0x1fffffffffffffffff,0x163f49bff8929f6020),(178,0x1fffffffffffffffff,0x163f49bff8929f6020),(179,0x1fffffffffffffffff,0x163f49bff8929f6020),(180,0x1fffffffffffffffff,0x163f49bff8929f6020),(181,0x1fffffffffffffffff,0x163f49bff8929f6020),(182,0x1fffffffffffffffff,0x163f49bff8929f6020),(183,0x1fffffffffffffffff,0x163f49bff8929f6020),(184,0x1fffffffffffffffff,0x163f49bff8929f6020),(185,0x1fffffffffffffffff,0x163f49bff8929f6020),(186,0x1fffffffffffffffff,0x163f49bff8929f6020),(187,0x1fffffffffffffffff,0x163f49bff8929f6020),(188,0x1fffffffffffffffff,0x163f49bff8929f6020),(189,0x1fffffffffffffffff,0x163f49bff8929f6020)]
  (.n .l [] .l))) [(146,0x1fffffffffffffffff,0x10000000000000)] (.n (.n (.n (.n .l [] .l) [] .l)
  [] (.n .l
  [(141,0x1fffffffffffffffff,0x800000000),(142,0x1fffffffffffffffff,0x100000800000000),(143,0x1fffffffffffffffff,0x100000800000000)]
  .l)) [] (.n (.n (.n .l [] .l)
  [(141,0x1fffffffffffffffff,0x800000000),(142,0x1fffffffffffffffff,0x100000800000000),(143,0x1fffffffffffffffff,0x100000800000000)]
  .l) [] (.n .l
  [(130,0x1ffcffffffffffffff,0x73f493ff800000020),(131,0x1ffcffffffffffffff,0x73f483ff800000020),(155,0x1ffcffffffffffffff,0x73f493ff800000020),(158,0x1ffcffffffffffffff,0x73f493ff800000020),(161,0x1ffcffffffffffffff,0x73f493ff800000020),(162,0x1ffcffffffffffffff,0x73f493ff800000020),(163,0x1ffcffffffffffffff,0x73f493ff800000020),(164,0x1ffcffffffffffffff,0x73f493ff800000020),(165,0x1ffcffffffffffffff,0x73f493ff800000020),(166,0x1ffcffffffffffffff,0x73f493ff800000020),(167,0x1ffcffffffffffffff,0x73f493ff800000020),(168,0x1ffcffffffffffffff,0x73f493ff800000020),(169,0x1ffcffffffffffffff,0x73f493ff800000020),(170,0x1ffcffffffffffffff,0x73f493ff800000020),(171,0x1ffcffffffffffffff,0x73f493ff800000020),(172,0x1ffcffffffffffffff,0x73f493ff800000020),(173,0x1ffcffffffffffffff,0x73f493ff800000020),(174,0x1ffcffffffffffffff,0x73f493ff800000020),(175,0x1ffcffffffffffffff,0x73f493ff800000020),(176,0x1ffcffffffffffffff,0x73f493ff800000020),(177,0x1ffcffffffffffffff,0x73f493ff800000020),(178,0x1ffcffffffffffffff,0x73f493ff800000020),(179,0x1ffcffffffffffffff,0x73f493ff800000020),(180,0x1ffcffffffffffffff,0x73f493ff800000020),(182,0x1ffcffffffffffffff,0x73f493ff800000020),(183,0x1ffcffffffffffffff,0x73f493ff800000020),(184,0x1ffcffffffffffffff,0x73f493ff800000020),(185,0x1ffcffffffffffffff,0x73f493ff800000020),(186,0x1ffcffffffffffffff,0x73f493ff800000020),(187,0x1ffcffffffffffffff,0x73f493ff800000020),(188,0x1ffcffffffffffffff,0x73f493ff800000020),(189,0x1ffcffffffffffffff,0x73f493ff800000020)]
  .l)))) [] (.n (.n (.n (.n (.n .l [] .l) [] .l) [] (.n .l [] .l)) [] (.n (.n (.n .l [] .l) [] .l)
  [(130,0x1fffffffffffffffff,0x73f493ff800000000),(131,0x1fffffffffffffffff,0x73f483ff800000000),(154,0x1fffffffffffffffff,0x73f493ff800000000),(155,0x1fffffffffffffffff,0x73f493ff800000000),(158,0x1fffffffffffffffff,0x73f493ff800000000),(161,0x1fffffffffffffffff,0x73f493ff800000000),(162,0x1fffffffffffffffff,0x73f493ff800000000),(163,0x1fffffffffffffffff,0x73f493ff800000000),(164,0x1fffffffffffffffff,0x73f493ff800000000),(165,0x1fffffffffffffffff,0x73f493ff800000000),(166,0x1fffffffffffffffff,0x73f493ff800000000),(167,0x1fffffffffffffffff,0x73f493ff800000000),(168,0x1fffffffffffffffff,0x73f493ff800000000),(169,0x1fffffffffffffffff,0x73f493ff800000000),(170,0x1fffffffffffffffff,0x73f493ff800000000),(171,0x1fffffffffffffffff,0x73f493ff800000000),(172,0x1fffffffffffffffff,0x73f493ff800000000),(173,0x1fffffffffffffffff,0x73f493ff800000000),(174,0x1fffffffffffffffff,0x73f493ff800000000),(175,0x1fffffffffffffffff,0x73f493ff800000000),(176,0x1fffffffffffffffff,0x73f493ff800000000),(177,0x1fffffffffffffffff,0x73f493ff800000000),(178,0x1fffffffffffffffff,0x73f493ff800000000),(179,0x1fffffffffffffffff,0x73f493ff800000000),(180,0x1fffffffffffffffff,0x73f493ff800000000),(181,0x1fffffffffffffffff,0x73f493ff800000000),(182,0x1fffffffffffffffff,0x73f493ff800000000),(183,0x1fffffffffffffffff,0x73f493ff800000000),(184,0x1fffffffffffffffff,0x73f493ff800000000),(185,0x1fffffffffffffffff,0x73f493ff800000000),(186,0x1fffffffffffffffff,0x73f493ff800000000),(187,0x1fffffffffffffffff,0x73f493ff800000000),(188,0x1fffffffffffffffff,0x73f493ff800000000),(189,0x1fffffffffffffffff,0x73f493ff800000000)]
  (.n .l [] .l))) [] (.n (.n (.n (.n .l [] .l) [] .l) [] (.n .l
  [(148,0x1fffffffffffffffff,0x20),(152,0x1fffffffffffffffff,0x20),(155,0x1fffffffffffffffff,0x20)]
  .l)) [] (.n (.n .l [] .l) [] (.n .l
  [(130,0x1fffffffffffffffff,0x163f49bff8929f6020),(131,0x1fffffffffffffffff,0x163f48bff8929f6020),(154,0x1fffffffffffffffff,0x163f49bff8929f6020),(155,0x1fffffffffffffffff,0x163f49bff8929f6020),(158,0x1fffffffffffffffff,0x163f49bff8929f6020),(161,0x1fffffffffffffffff,0x163f49bff8929f6020),(162,0x1fffffffffffffffff,0x163f49bff8929f6020),(163,0x1fffffffffffffffff,0x163f49bff8929f6020),(164,0x1fffffffffffffffff,0x163f49bff8929f6020),(165,0x1fffffffffffffffff,0x163f49bff8929f6020),(166,0x1fffffffffffffffff,0x163f49bff8929f6020),(167,0x1fffffffffffffffff,0x163f49bff8929f6020),(168,0x1fffffffffffffffff,0x163f49bff8929f6020),(169,0x1fffffffffffffffff,0x163f49bff8929f6020),(170,0x1fffffffffffffffff,0x163f49bff8929f6020),(171,0x1fffffffffffffffff,0x163f49bff8929f6020),(172,0x1fffffffffffffffff,0x163f49bff8929f6020),(173,0x1fffffffffffffffff,0x163f49bff8929f6020),(174,0x1fffffffffffffffff,0x163f49bff8929f6020),(175,0x1fffffffffffffffff,0x163f49bff8929f6020),(176,0x1fffffffffffffffff,0x163f49bff8929f6020),(177,0x1fffffffffffffffff,0x163f49bff8929f6020),(178,0x1fffffffffffffffff,0x163f49bff8929f6020),(179,0x1fffffffffffffffff,0x163f49bff8929f6020),(180,0x1fffffffffffffffff,0x163f49bff8929f6020),(181,0x1fffffffffffffffff,0x163f49bff8929f6020),(182,0x1fffffffffffffffff,0x163f49bff8929f6020),(183,0x1fffffffffffffffff,0x163f49bff8929f6020),(184,0x1fffffffffffffffff,0x163f49bff8929f6020),(185,0x1fffffffffffffffff,0x163f49bff8929f6020),(186,0x1fffffffffffffffff,0x163f49bff8929f6020),(187,0x1fffffffffffffffff,0x163f49bff8929f6020),(188,0x1fffffffffffffffff,0x163f49bff8929f6020),(189,0x1fffffffffffffffff,0x163f49bff8929f6020)]
  .l)))))))
  [(129,0x1fffffffffffffffff,0x1000008000929f6020),(159,0x1fffffffffffffffff,0x8000929a0000),(160,0x1fffffffffffffffff,0x929a0000),(201,0x1fffffffffffffffff,0x8000929a0000)]
  (.n (.n (.n (.n (.n (.n (.n (.n .l [] .l) [] .l) [] (.n .l [] .l)) [] (.n (.n (.n .l [] .l)
  [(130,0x1fffffffffffffffff,0x73f493ff800000000),(131,0x1fffffffffffffffff,0x73f483ff800000000),(154,0x1fffffffffffffffff,0x73f493ff800000000),(155,0x1fffffffffffffffff,0x73f493ff800000000),(158,0x1fffffffffffffffff,0x73f493ff800000000),(161,0x1fffffffffffffffff,0x73f493ff800000000),(162,0x1fffffffffffffffff,0x73f493ff800000000),(163,0x1fffffffffffffffff,0x73f493ff800000000),(164,0x1fffffffffffffffff,0x73f493ff800000000),(165,0x1fffffffffffffffff,0x73f493ff800000000),(166,0x1fffffffffffffffff,0x73f493ff800000000),(167,0x1fffffffffffffffff,0x73f493ff800000000),(168,0x1fffffffffffffffff,0x73f493ff800000000),(169,0x1fffffffffffffffff,0x73f493ff800000000),(170,0x1fffffffffffffffff,0x73f493ff800000000),(171,0x1fffffffffffffffff,0x73f493ff800000000),(172,0x1fffffffffffffffff,0x73f493ff800000000),(173,0x1fffffffffffffffff,0x73f493ff800000000),(174,0x1fffffffffffffffff,0x73f493ff800000000),(175,0x1fffffffffffffffff,0x73f493ff800000000),(176,0x1fffffffffffffffff,0x73f493ff800000000),(177,0x1fffffffffffffffff,0x73f493ff800000000),(178,0x1fffffffffffffffff,0x73f493ff800000000),(179,0x1fffffffffffffffff,0x73f493ff800000000),(180,0x1fffffffffffffffff,0x73f493ff800000000),(181,0x1fffffffffffffffff,0x73f493ff800000000),(182,0x1fffffffffffffffff,0x73f493ff800000000),(183,0x1fffffffffffffffff,0x73f493ff800000000),(184,0x1fffffffffffffffff,0x73f493ff800000000),(185,0x1fffffffffffffffff,0x73f493ff800000000),(186,0x1fffffffffffffffff,0x73f493ff800000000),(187,0x1fffffffffffffffff,0x73f493ff800000000),(188,0x1fffffffffffffffff,0x73f493ff800000000),(189,0x1fffffffffffffffff,0x73f493ff800000000)]
  .l) [] (.n .l [] .l))) [] (.n (.n (.n (.n .l [] .l) [] .l)
  [(194,0x1fffffffffffffffff,0x1800008000929f6020)] (.n .l [] .l)) [] (.n (.n (.n .l [] .l) [] .l)
  [] (.n .l [(193,0x1fffffffffffffffff,0x4000000000020074)] .l)))) [] (.n (.n (.n (.n (.n .l []
  .l) [] .l) [] (.n .l
  [(130,0x1fffffffffffffffff,0x73fe93ff80c200c3e),(131,0x1fffffffffffffffff,0x73fe93ff80c200c3e),(154,0x1fffffffffffffffff,0x73fe93ff80c200c3e),(155,0x1fffffffffffffffff,0x73fe93ff80c200c3e),(158,0x1fffffffffffffffff,0x73fe93ff80c200c3e),(161,0x1fffffffffffffffff,0x73fe93ff80c200c3e),(162,0x1fffffffffffffffff,0x73fe93ff80c200c3e),(163,0x1fffffffffffffffff,0x73fe93ff80c200c3e),(164,0x1fffffffffffffffff,0x73fe93ff80c200c3e),(165,0x1fffffffffffffffff,0x73fe93ff80c200c3e),(166,0x1fffffffffffffffff,0x73fe93ff80c200c3e),(167,0x1fffffffffffffffff,0x73fe93ff80c200c3e),(168,0x1fffffffffffffffff,0x73fe93ff80c200c3e),(169,0x1fffffffffffffffff,0x73fe93ff80c200c3e),(170,0x1fffffffffffffffff,0x73fe93ff80c200c3e),(171,0x1fffffffffffffffff,0x73fe93ff80c200c3e),(172,0x1fffffffffffffffff,0x73fe93ff80c200c3e),(173,0x1fffffffffffffffff,0x73fe93ff80c200c3e),(174,0x1fffffffffffffffff,0x73fe93ff80c200c3e),(175,0x1fffffffffffffffff,0x73fe93ff80c200c3e),(176,0x1fffffffffffffffff,0x73fe93ff80c200c3e),(177,0x1fffffffffffffffff,0x73fe93ff80c200c3e),(178,0x1fffffffffffffffff,0x73fe93ff80c200c3e),(179,0x1fffffffffffffffff,0x73fe93ff80c200c3e),(180,0x1fffffffffffffffff,0x73fe93ff80c200c3e),(181,0x1fffffffffffffffff,0x73fe93ff80c200c3e),(182,0x1fffffffffffffffff,0x73fe93ff80c200c3e),(183,0x1fffffffffffffffff,0x73fe93ff80c200c3e),(184,0x1fffffffffffffffff,0x73fe93ff80c200c3e),(185,0x1fffffffffffffffff,0x73fe93ff80c200c3e),(186,0x1fffffffffffffffff,0x73fe93ff80c200c3e),(187,0x1fffffffffffffffff,0x73fe93ff80c200c3e),(188,0x1fffffffffffffffff,0x73fe93ff80c200c3e),(189,0x1fffffffffffffffff,0x73fe93ff80c200c3e)]
  .l)) [] (.n (.n (.n .l [] .l) [] .l)
  [(130,0x1fffffffffffffffff,0x1fffefbff89ebf6c7e),(131,0x1fffffffffffffffff,0x1fffefbff89ebf6c7e),(154,0x1fffffffffffffffff,0x1fffefbff89ebf6c7e),(155,0x1fffffffffffffffff,0x1fffefbff89ebf6c7e),(158,0x1fffffffffffffffff,0x1fffefbff89ebf6c7e),(161,0x1fffffffffffffffff,0x1fffefbff89ebf6c7e),(162,0x1fffffffffffffffff,0x1fffefbff89ebf6c7e),(163,0x1fffffffffffffffff,0x1fffefbff89ebf6c7e),(164,0x1fffffffffffffffff,0x1fffefbff89ebf6c7e),(165,0x1fffffffffffffffff,0x1fffefbff89ebf6c7e),(166,0x1fffffffffffffffff,0x1fffefbff89ebf6c7e),(167,0x1fffffffffffffffff,0x1fffefbff89ebf6c7e),(168,0x1fffffffffffffffff,0x1fffefbff89ebf6c7e),(169,0x1fffffffffffffffff,0x1fffefbff89ebf6c7e),(170,0x1fffffffffffffffff,0x1fffefbff89ebf6c7e),(171,0x1fffffffffffffffff,0x1fffefbff89ebf6c7e),(172,0x1fffffffffffffffff,0x1fffefbff89ebf6c7e),(173,0x1fffffffffffffffff,0x1fffefbff89ebf6c7e),(174,0x1fffffffffffffffff,0x1fffefbff89ebf6c7e),(175,0x1fffffffffffffffff,0x1fffefbff89ebf6c7e),(176,0x1fffffffffffffffff,0x1fffefbff89ebf6c7e),(177,0x1fffffffffffffffff,0x1fffefbff89ebf6c7e),(178,0x1fffffffffffffffff,0x1fffefbff89ebf6c7e),(179,0x1fffffffffffffffff,0x1fffefbff89ebf6c7e),(180,0x1fffffffffffffffff,0x1fffefbff89ebf6c7e),(181,0x1fffffffffffffffff,0x1fffefbff89ebf6c7e),(182,0x1fffffffffffffffff,0x1fffefbff89ebf6c7e),(183,0x1fffffffffffffffff,0x1fffefbff89ebf6c7e),(184,0x1fffffffffffffffff,0x1fffefbff89ebf6c7e),(185,0x1fffffffffffffffff,0x1fffefbff89ebf6c7e),(186,0x1fffffffffffffffff,0x1fffefbff89ebf6c7e),(187,0x1fffffffffffffffff,0x1fffefbff89ebf6c7e),(188,0x1fffffffffffffffff,0x1fffefbff89ebf6c7e),(189,0x1fffffffffffffffff,0x1fffefbff89ebf6c7e)]
  (.n .l [] .l))) [] (.n (.n (.n (.n .l [] .l) [] .l)
  [(193,0x1fffffffffffffffff,0x4000000000020074)] (.n .l [] .l)) [] (.n (.n .l [] .l)
  [(130,0x1fffffffffffffffff,0x6bf4d3ff800000020),(131,0x1fffffffffffffffff,0x6bf4c3ff800000020),(154,0x1fffffffffffffffff,0x6bf4d3ff800000020),(155,0x1fffffffffffffffff,0x6bf4d3ff800000020),(158,0x1fffffffffffffffff,0x6bf4d3ff800000020),(161,0x1fffffffffffffffff,0x6bf4d3ff800000020),(162,0x1fffffffffffffffff,0x6bf4d3ff800000020),(163,0x1fffffffffffffffff,0x6bf4d3ff800000020),(164,0x1fffffffffffffffff,0x6bf4d3ff800000020),(165,0x1fffffffffffffffff,0x6bf4d3ff800000020),(166,0x1fffffffffffffffff,0x6bf4d3ff800000020),(167,0x1fffffffffffffffff,0x6bf4d3ff800000020),(168,0x1fffffffffffffffff,0x6bf4d3ff800000020),(169,0x1fffffffffffffffff,0x6bf4d3ff800000020),(170,0x1fffffffffffffffff,0x6bf4d3ff800000020),(171,0x1fffffffffffffffff,0x6bf4d3ff800000020),(172,0x1fffffffffffffffff,0x6bf4d3ff800000020),(173,0x1fffffffffffffffff,0x6bf4d3ff800000020),(174,0x1fffffffffffffffff,0x6bf4d3ff800000020),(175,0x1fffffffffffffffff,0x6bf4d3ff800000020),(176,0x1fffffffffffffffff,0x6bf4d3ff800000020),(177,0x1fffffffffffffffff,0x6bf4d3ff800000020),(178,0x1fffffffffffffffff,0x6bf4d3ff800000020),(179,0x1fffffffffffffffff,0x6bf4d3ff800000020),(180,0x1fffffffffffffffff,0x6bf4d3ff800000020),(181,0x1fffffffffffffffff,0x6bf4d3ff800000020),(182,0x1fffffffffffffffff,0x6bf4d3ff800000020),(183,0x1fffffffffffffffff,0x6bf4d3ff800000020),(184,0x1fffffffffffffffff,0x6bf4d3ff800000020),(185,0x1fffffffffffffffff,0x6bf4d3ff800000020),(186,0x1fffffffffffffffff,0x6bf4d3ff800000020),(187,0x1fffffffffffffffff,0x6bf4d3ff800000020),(188,0x1fffffffffffffffff,0x6bf4d3ff800000020),(189,0x1fffffffffffffffff,0x6bf4d3ff800000020),(202,0x1fffffffffffffffff,0x8004000000000020)]
  (.n .l [] .l))))) [] (.n (.n (.n (.n (.n (.n .l [] .l)
  [(130,0x1fffffffffffffffff,0x1e3f49bff8929f6020),(131,0x1fffffffffffffffff,0x1e3f48bff8929f6020),(154,0x1fffffffffffffffff,0x1e3f49bff8929f6020),(155,0x1fffffffffffffffff,0x1e3f49bff8929f6020),(158,0x1fffffffffffffffff,0x1e3f49bff8929f6020),(161,0x1fffffffffffffffff,0x1e3f49bff8929f6020),(162,0x1fffffffffffffffff,0x1e3f49bff8929f6020),(163,0x1fffffffffffffffff,0x1e3f49bff8929f6020),(164,0x1fffffffffffffffff,0x1e3f49bff8929f6020),(165,0x1fffffffffffffffff,0x1e3f49bff8929f6020),(166,0x1fffffffffffffffff,0x1e3f49bff8929f6020),(167,0x1fffffffffffffffff,0x1e3f49bff8929f6020),(168,0x1fffffffffffffffff,0x1e3f49bff8929f6020),(169,0x1fffffffffffffffff,0x1e3f49bff8929f6020),(170,0x1fffffffffffffffff,0x1e3f49bff8929f6020),(171,0x1fffffffffffffffff,0x1e3f49bff8929f6020),(172,0x1fffffffffffffffff,0x1e3f49bff8929f6020),(173,0x1fffffffffffffffff,0x1e3f49bff8929f6020),(174,0x1fffffffffffffffff,0x1e3f49bff8929f6020),(175,0x1fffffffffffffffff,0x1e3f49bff8929f6020),(176,0x1fffffffffffffffff,0x1e3f49bff8929f6020),(177,0x1fffffffffffffffff,0x1e3f49bff8929f6020),(178,0x1fffffffffffffffff,0x1e3f49bff8929f6020),(179,0x1fffffffffffffffff,0x1e3f49bff8929f6020),(180,0x1fffffffffffffffff,0x1e3f49bff8929f6020),(181,0x1fffffffffffffffff,0x1e3f49bff8929f6020),(182,0x1fffffffffffffffff,0x1e3f49bff8929f6020),(183,0x1fffffffffffffffff,0x1e3f49bff8929f6020),(184,0x1fffffffffffffffff,0x1e3f49bff8929f6020),(185,0x1fffffffffffffffff,0x1e3f49bff8929f6020),(186,0x1fffffffffffffffff,0x1e3f49bff8929f6020),(187,0x1fffffffffffffffff,0x1e3f49bff8929f6020),(188,0x1fffffffffffffffff,0x1e3f49bff8929f6020),(189,0x1fffffffffffffffff,0x1e3f49bff8929f6020)]
  .l) [] (.n .l [] .l)) [] (.n (.n (.n .l [] .l)
  [(130,0x1fffffffffffffffff,0x63f4d3ff800000000),(131,0x1fffffffffffffffff,0x63f4c3ff800000000),(154,0x1fffffffffffffffff,0x63f4d3ff800000000),(155,0x1fffffffffffffffff,0x63f4d3ff800000000),(158,0x1fffffffffffffffff,0x63f4d3ff800000000),(161,0x1fffffffffffffffff,0x63f4d3ff800000000),(162,0x1fffffffffffffffff,0x63f4d3ff800000000),(163,0x1fffffffffffffffff,0x63f4d3ff800000000),(164,0x1fffffffffffffffff,0x63f4d3ff800000000),(165,0x1fffffffffffffffff,0x63f4d3ff800000000),(166,0x1fffffffffffffffff,0x63f4d3ff800000000),(167,0x1fffffffffffffffff,0x63f4d3ff800000000),(168,0x1fffffffffffffffff,0x63f4d3ff800000000),(169,0x1fffffffffffffffff,0x63f4d3ff800000000),(170,0x1fffffffffffffffff,0x63f4d3ff800000000),(171,0x1fffffffffffffffff,0x63f4d3ff800000000),(172,0x1fffffffffffffffff,0x63f4d3ff800000000),(173,0x1fffffffffffffffff,0x63f4d3ff800000000),(174,0x1fffffffffffffffff,0x63f4d3ff800000000),(175,0x1fffffffffffffffff,0x63f4d3ff800000000),(176,0x1fffffffffffffffff,0x63f4d3ff800000000),(177,0x1fffffffffffffffff,0x63f4d3ff800000000),(178,0x1fffffffffffffffff,0x63f4d3ff800000000),(179,0x1fffffffffffffffff,0x63f4d3ff800000000),(180,0x1fffffffffffffffff,0x63f4d3ff800000000),(181,0x1fffffffffffffffff,0x63f4d3ff800000000),(182,0x1fffffffffffffffff,0x63f4d3ff800000000),(183,0x1fffffffffffffffff,0x63f4d3ff800000000),(184,0x1fffffffffffffffff,0x63f4d3ff800000000),(185,0x1fffffffffffffffff,0x63f4d3ff800000000),(186,0x1fffffffffffffffff,0x63f4d3ff800000000),(187,0x1fffffffffffffffff,0x63f4d3ff800000000),(188,0x1fffffffffffffffff,0x63f4d3ff800000000),(189,0x1fffffffffffffffff,0x63f4d3ff800000000)]
  .l)
  [(141,0x1fffffffffffffffff,0x88000000000000000),(142,0x1fffffffffffffffff,0x88100000000000000),(143,0x1fffffffffffffffff,0x88100000000000000)]
  (.n .l [] .l)))
  [(141,0x1fffffffffffffffff,0x2010000000000000),(142,0x1fffffffffffffffff,0x2110000000000000),(143,0x1fffffffffffffffff,0x2110000000000000)]
  (.n (.n (.n (.n .l [] .l) [] .l) [] (.n .l [] .l)) [] (.n (.n (.n .l [] .l) [] .l)
  [(193,0x1fffffffffffffffff,0x103a100000c200c3e),(197,0x1fffffffffffffffff,0x103a500000c200c3e)]
  (.n .l [] .l)))) [(147,0x1fffffffffffffffff,0x4004000000000000)] (.n (.n (.n (.n (.n .l [] .l)
  [] .l)
  [(130,0x1fffffffffffffffff,0x1fffefbff89ebf6c7e),(131,0x1fffffffffffffffff,0x1fffefbff89ebf6c7e),(154,0x1fffffffffffffffff,0x1fffefbff89ebf6c7e),(155,0x1fffffffffffffffff,0x1fffefbff89ebf6c7e),(158,0x1fffffffffffffffff,0x1fffefbff89ebf6c7e),(161,0x1fffffffffffffffff,0x1fffefbff89ebf6c7e),(162,0x1fffffffffffffffff,0x1fffefbff89ebf6c7e),(163,0x1fffffffffffffffff,0x1fffefbff89ebf6c7e),(164,0x1fffffffffffffffff,0x1fffefbff89ebf6c7e),(165,0x1fffffffffffffffff,0x1fffefbff89ebf6c7e),(166,0x1fffffffffffffffff,0x1fffefbff89ebf6c7e),(167,0x1fffffffffffffffff,0x1fffefbff89ebf6c7e),(168,0x1fffffffffffffffff,0x1fffefbff89ebf6c7e),(169,0x1fffffffffffffffff,0x1fffefbff89ebf6c7e),(170,0x1fffffffffffffffff,0x1fffefbff89ebf6c7e),(171,0x1fffffffffffffffff,0x1fffefbff89ebf6c7e),(172,0x1fffffffffffffffff,0x1fffefbff89ebf6c7e),(173,0x1fffffffffffffffff,0x1fffefbff89ebf6c7e),(174,0x1fffffffffffffffff,0x1fffefbff89ebf6c7e),(175,0x1fffffffffffffffff,0x1fffefbff89ebf6c7e),(176,0x1fffffffffffffffff,0x1fffefbff89ebf6c7e),(177,0x1fffffffffffffffff,0x1fffefbff89ebf6c7e),(178,0x1fffffffffffffffff,0x1fffefbff89ebf6c7e),(179,0x1fffffffffffffffff,0x1fffefbff89ebf6c7e),(180,0x1fffffffffffffffff,0x1fffefbff89ebf6c7e),(181,0x1fffffffffffffffff,0x1fffefbff89ebf6c7e),(182,0x1fffffffffffffffff,0x1fffefbff89ebf6c7e),(183,0x1fffffffffffffffff,0x1fffefbff89ebf6c7e),(184,0x1fffffffffffffffff,0x1fffefbff89ebf6c7e),(185,0x1fffffffffffffffff,0x1fffefbff89ebf6c7e),(186,0x1fffffffffffffffff,0x1fffefbff89ebf6c7e),(187,0x1fffffffffffffffff,0x1fffefbff89ebf6c7e),(188,0x1fffffffffffffffff,0x1fffefbff89ebf6c7e),(189,0x1fffffffffffffffff,0x1fffefbff89ebf6c7e)]
  (.n .l
  [(130,0x1fffffffffffffffff,0x7bfed3ff80c200c3e),(131,0x1fffffffffffffffff,0x7bfed3ff80c200c3e),(154,0x1fffffffffffffffff,0x7bfed3ff80c200c3e),(155,0x1fffffffffffffffff,0x7bfed3ff80c200c3e),(158,0x1fffffffffffffffff,0x7bfed3ff80c200c3e),(161,0x1fffffffffffffffff,0x7bfed3ff80c200c3e),(162,0x1fffffffffffffffff,0x7bfed3ff80c200c3e),(163,0x1fffffffffffffffff,0x7bfed3ff80c200c3e),(164,0x1fffffffffffffffff,0x7bfed3ff80c200c3e),(165,0x1fffffffffffffffff,0x7bfed3ff80c200c3e),(166,0x1fffffffffffffffff,0x7bfed3ff80c200c3e),(167,0x1fffffffffffffffff,0x7bfed3ff80c200c3e),(168,0x1fffffffffffffffff,0x7bfed3ff80c200c3e),(169,0x1fffffffffffffffff,0x7bfed3ff80c200c3e),(170,0x1fffffffffffffffff,0x7bfed3ff80c200c3e),(171,0x1fffffffffffffffff,0x7bfed3ff80c200c3e),(172,0x1fffffffffffffffff,0x7bfed3ff80c200c3e),(173,0x1fffffffffffffffff,0x7bfed3ff80c200c3e),(174,0x1fffffffffffffffff,0x7bfed3ff80c200c3e),(175,0x1fffffffffffffffff,0x7bfed3ff80c200c3e),(176,0x1fffffffffffffffff,0x7bfed3ff80c200c3e),(177,0x1fffffffffffffffff,0x7bfed3ff80c200c3e),(178,0x1fffffffffffffffff,0x7bfed3ff80c200c3e),(179,0x1fffffffffffffffff,0x7bfed3ff80c200c3e),(180,0x1fffffffffffffffff,0x7bfed3ff80c200c3e),(181,0x1fffffffffffffffff,0x7bfed3ff80c200c3e),(182,0x1fffffffffffffffff,0x7bfed3ff80c200c3e),(183,0x1fffffffffffffffff,0x7bfed3ff80c200c3e),(184,0x1fffffffffffffffff,0x7bfed3ff80c200c3e),(185,0x1fffffffffffffffff,0x7bfed3ff80c200c3e),(186,0x1fffffffffffffffff,0x7bfed3ff80c200c3e),(187,0x1fffffffffffffffff,0x7bfed3ff80c200c3e),(188,0x1fffffffffffffffff,0x7bfed3ff80c200c3e),(189,0x1fffffffffffffffff,0x7bfed3ff80c200c3e)]
  .l)) [] (.n (.n (.n .l [] .l) [] .l)
  [(130,0x1fffffffffffffffff,0x1fffefbff89ebf6c7e),(131,0x1fffffffffffffffff,0x1fffefbff89ebf6c7e),(154,0x1fffffffffffffffff,0x1fffefbff89ebf6c7e),(155,0x1fffffffffffffffff,0x1fffefbff89ebf6c7e),(158,0x1fffffffffffffffff,0x1fffefbff89ebf6c7e),(161,0x1fffffffffffffffff,0x1fffefbff89ebf6c7e),(162,0x1fffffffffffffffff,0x1fffefbff89ebf6c7e),(163,0x1fffffffffffffffff,0x1fffefbff89ebf6c7e),(164,0x1fffffffffffffffff,0x1fffefbff89ebf6c7e),(165,0x1fffffffffffffffff,0x1fffefbff89ebf6c7e),(166,0x1fffffffffffffffff,0x1fffefbff89ebf6c7e),(167,0x1fffffffffffffffff,0x1fffefbff89ebf6c7e),(168,0x1fffffffffffffffff,0x1fffefbff89ebf6c7e),(169,0x1fffffffffffffffff,0x1fffefbff89ebf6c7e),(170,0x1fffffffffffffffff,0x1fffefbff89ebf6c7e),(171,0x1fffffffffffffffff,0x1fffefbff89ebf6c7e),(172,0x1fffffffffffffffff,0x1fffefbff89ebf6c7e),(173,0x1fffffffffffffffff,0x1fffefbff89ebf6c7e),(174,0x1fffffffffffffffff,0x1fffefbff89ebf6c7e),(175,0x1fffffffffffffffff,0x1fffefbff89ebf6c7e),(176,0x1fffffffffffffffff,0x1fffefbff89ebf6c7e),(177,0x1fffffffffffffffff,0x1fffefbff89ebf6c7e),(178,0x1fffffffffffffffff,0x1fffefbff89ebf6c7e),(179,0x1fffffffffffffffff,0x1fffefbff89ebf6c7e),(180,0x1fffffffffffffffff,0x1fffefbff89ebf6c7e),(181,0x1fffffffffffffffff,0x1fffefbff89ebf6c7e),(182,0x1fffffffffffffffff,0x1fffefbff89ebf6c7e),(183,0x1fffffffffffffffff,0x1fffefbff89ebf6c7e),(184,0x1fffffffffffffffff,0x1fffefbff89ebf6c7e),(185,0x1fffffffffffffffff,0x1fffefbff89ebf6c7e),(186,0x1fffffffffffffffff,0x1fffefbff89ebf6c7e),(187,0x1fffffffffffffffff,0x1fffefbff89ebf6c7e),(188,0x1fffffffffffffffff,0x1fffefbff89ebf6c7e),(189,0x1fffffffffffffffff,0x1fffefbff89ebf6c7e)]
  (.n .l [] .l))) [(135,0x1fffffffffffffffff,0x1000008000929f6020)] (.n (.n (.n (.n .l [] .l) []
  .l) [] (.n .l [] .l)) [] (.n (.n .l [] .l) [] (.n .l
  [(130,0x1fffffffffffffffff,0x6bf493ff800000000),(131,0x1fffffffffffffffff,0x6bf483ff800000000),(154,0x1fffffffffffffffff,0x6bf493ff800000000),(155,0x1fffffffffffffffff,0x6bf493ff800000000),(158,0x1fffffffffffffffff,0x6bf493ff800000000),(161,0x1fffffffffffffffff,0x6bf493ff800000000),(162,0x1fffffffffffffffff,0x6bf493ff800000000),(163,0x1fffffffffffffffff,0x6bf493ff800000000),(164,0x1fffffffffffffffff,0x6bf493ff800000000),(165,0x1fffffffffffffffff,0x6bf493ff800000000),(166,0x1fffffffffffffffff,0x6bf493ff800000000),(167,0x1fffffffffffffffff,0x6bf493ff800000000),(168,0x1fffffffffffffffff,0x6bf493ff800000000),(169,0x1fffffffffffffffff,0x6bf493ff800000000),(170,0x1fffffffffffffffff,0x6bf493ff800000000),(171,0x1fffffffffffffffff,0x6bf493ff800000000),(172,0x1fffffffffffffffff,0x6bf493ff800000000),(173,0x1fffffffffffffffff,0x6bf493ff800000000),(174,0x1fffffffffffffffff,0x6bf493ff800000000),(175,0x1fffffffffffffffff,0x6bf493ff800000000),(176,0x1fffffffffffffffff,0x6bf493ff800000000),(177,0x1fffffffffffffffff,0x6bf493ff800000000),(178,0x1fffffffffffffffff,0x6bf493ff800000000),(179,0x1fffffffffffffffff,0x6bf493ff800000000),(180,0x1fffffffffffffffff,0x6bf493ff800000000),(181,0x1fffffffffffffffff,0x6bf493ff800000000),(182,0x1fffffffffffffffff,0x6bf493ff800000000),(183,0x1fffffffffffffffff,0x6bf493ff800000000),(184,0x1fffffffffffffffff,0x6bf493ff800000000),(185,0x1fffffffffffffffff,0x6bf493ff800000000),(186,0x1fffffffffffffffff,0x6bf493ff800000000),(187,0x1fffffffffffffffff,0x6bf493ff800000000),(188,0x1fffffffffffffffff,0x6bf493ff800000000),(189,0x1fffffffffffffffff,0x6bf493ff800000000)]
  .l)))))) [(132,0x1fffffffffffffffff,0x1000008000929f6020),(147,0x1fffffffffffffffff,0x1000000)]
  (.n (.n (.n (.n (.n (.n (.n .l [] .l) [] .l) [] (.n .l [] .l))
  [(141,0x1fffffffffffffffff,0x80000000000000000),(142,0x1fffffffffffffffff,0x80100000000000000),(143,0x1fffffffffffffffff,0x80100000000000000)]
  (.n (.n (.n .l [] .l) [] .l) [] (.n .l
  [(130,0x1fffffffffffffffff,0x73fe93ff80c200c3e),(131,0x1fffffffffffffffff,0x73fe93ff80c200c3e),(154,0x1fffffffffffffffff,0x73fe93ff80c200c3e),(155,0x1fffffffffffffffff,0x73fe93ff80c200c3e),(158,0x1fffffffffffffffff,0x73fe93ff80c200c3e),(161,0x1fffffffffffffffff,0x73fe93ff80c200c3e),(162,0x1fffffffffffffffff,0x73fe93ff80c200c3e),(163,0x1fffffffffffffffff,0x73fe93ff80c200c3e),(164,0x1fffffffffffffffff,0x73fe93ff80c200c3e),(165,0x1fffffffffffffffff,0x73fe93ff80c200c3e),(166,0x1fffffffffffffffff,0x73fe93ff80c200c3e),(167,0x1fffffffffffffffff,0x73fe93ff80c200c3e),(168,0x1fffffffffffffffff,0x73fe93ff80c200c3e),(169,0x1fffffffffffffffff,0x73fe93ff80c200c3e),(170,0x1fffffffffffffffff,0x73fe93ff80c200c3e),(171,0x1fffffffffffffffff,0x73fe93ff80c200c3e),(172,0x1fffffffffffffffff,0x73fe93ff80c200c3e),(173,0x1fffffffffffffffff,0x73fe93ff80c200c3e),(174,0x1fffffffffffffffff,0x73fe93ff80c200c3e),(175,0x1fffffffffffffffff,0x73fe93ff80c200c3e),(176,0x1fffffffffffffffff,0x73fe93ff80c200c3e),(177,0x1fffffffffffffffff,0x73fe93ff80c200c3e),(178,0x1fffffffffffffffff,0x73fe93ff80c200c3e),(179,0x1fffffffffffffffff,0x73fe93ff80c200c3e),(180,0x1fffffffffffffffff,0x73fe93ff80c200c3e),(181,0x1fffffffffffffffff,0x73fe93ff80c200c3e),(182,0x1fffffffffffffffff,0x73fe93ff80c200c3e),(183,0x1fffffffffffffffff,0x73fe93ff80c200c3e),(184,0x1fffffffffffffffff,0x73fe93ff80c200c3e),(185,0x1fffffffffffffffff,0x73fe93ff80c200c3e),(186,0x1fffffffffffffffff,0x73fe93ff80c200c3e),(187,0x1fffffffffffffffff,0x73fe93ff80c200c3e),(188,0x1fffffffffffffffff,0x73fe93ff80c200c3e),(189,0x1fffffffffffffffff,0x73fe93ff80c200c3e)]
  .l))) [] (.n (.n (.n (.n .l [] .l)
  [(130,0x1fffffffffffffffff,0x163f49bff8929f6020),(131,0x1fffffffffffffffff,0x163f48bff8929f6020),(134,0x1fffffffffffffffff,0x1000008000929f6020),(148,0x1fffffffffffffffff,0x1000008000929f6020),(154,0x1fffffffffffffffff,0x163f49bff8929f6020),(155,0x1fffffffffffffffff,0x163f49bff8929f6020),(158,0x1fffffffffffffffff,0x163f49bff8929f6020),(161,0x1fffffffffffffffff,0x163f49bff8929f6020),(162,0x1fffffffffffffffff,0x163f49bff8929f6020),(163,0x1fffffffffffffffff,0x163f49bff8929f6020),(164,0x1fffffffffffffffff,0x163f49bff8929f6020),(165,0x1fffffffffffffffff,0x163f49bff8929f6020),(166,0x1fffffffffffffffff,0x163f49bff8929f6020),(167,0x1fffffffffffffffff,0x163f49bff8929f6020),(168,0x1fffffffffffffffff,0x163f49bff8929f6020),(169,0x1fffffffffffffffff,0x163f49bff8929f6020),(170,0x1fffffffffffffffff,0x163f49bff8929f6020),(171,0x1fffffffffffffffff,0x163f49bff8929f6020),(172,0x1fffffffffffffffff,0x163f49bff8929f6020),(173,0x1fffffffffffffffff,0x163f49bff8929f6020),(174,0x1fffffffffffffffff,0x163f49bff8929f6020),(175,0x1fffffffffffffffff,0x163f49bff8929f6020),(176,0x1fffffffffffffffff,0x163f49bff8929f6020),(177,0x1fffffffffffffffff,0x163f49bff8929f6020),(178,0x1fffffffffffffffff,0x163f49bff8929f6020),(179,0x1fffffffffffffffff,0x163f49bff8929f6020),(180,0x1fffffffffffffffff,0x163f49bff8929f6020),(181,0x1fffffffffffffffff,0x163f49bff8929f6020),(182,0x1fffffffffffffffff,0x163f49bff8929f6020),(183,0x1fffffffffffffffff,0x163f49bff8929f6020),(184,0x1fffffffffffffffff,0x163f49bff8929f6020),(185,0x1fffffffffffffffff,0x163f49bff8929f6020),(186,0x1fffffffffffffffff,0x163f49bff8929f6020),(187,0x1fffffffffffffffff,0x163f49bff8929f6020),(188,0x1fffffffffffffffff,0x163f49bff8929f6020),(189,0x1fffffffffffffffff,0x163f49bff8929f6020)]
  .l)
  [(130,0x1fffffffffffffffff,0x6bf493ff800000020),(131,0x1fffffffffffffffff,0x6bf483ff800000020),(154,0x1fffffffffffffffff,0x6bf493ff800000020),(155,0x1fffffffffffffffff,0x6bf493ff800000020),(158,0x1fffffffffffffffff,0x6bf493ff800000020),(161,0x1fffffffffffffffff,0x6bf493ff800000020),(162,0x1fffffffffffffffff,0x6bf493ff800000020),(163,0x1fffffffffffffffff,0x6bf493ff800000020),(164,0x1fffffffffffffffff,0x6bf493ff800000020),(165,0x1fffffffffffffffff,0x6bf493ff800000020),(166,0x1fffffffffffffffff,0x6bf493ff800000020),(167,0x1fffffffffffffffff,0x6bf493ff800000020),(168,0x1fffffffffffffffff,0x6bf493ff800000020),(169,0x1fffffffffffffffff,0x6bf493ff800000020),(170,0x1fffffffffffffffff,0x6bf493ff800000020),(171,0x1fffffffffffffffff,0x6bf493ff800000020),(172,0x1fffffffffffffffff,0x6bf493ff800000020),(173,0x1fffffffffffffffff,0x6bf493ff800000020),(174,0x1fffffffffffffffff,0x6bf493ff800000020),(175,0x1fffffffffffffffff,0x6bf493ff800000020),(176,0x1fffffffffffffffff,0x6bf493ff800000020),(177,0x1fffffffffffffffff,0x6bf493ff800000020),(178,0x1fffffffffffffffff,0x6bf493ff800000020),(179,0x1fffffffffffffffff,0x6bf493ff800000020),(180,0x1fffffffffffffffff,0x6bf493ff800000020),(181,0x1fffffffffffffffff,0x6bf493ff800000020),(182,0x1fffffffffffffffff,0x6bf493ff800000020),(183,0x1fffffffffffffffff,0x6bf493ff800000020),(184,0x1fffffffffffffffff,0x6bf493ff800000020),(185,0x1fffffffffffffffff,0x6bf493ff800000020),(186,0x1fffffffffffffffff,0x6bf493ff800000020),(187,0x1fffffffffffffffff,0x6bf493ff800000020),(188,0x1fffffffffffffffff,0x6bf493ff800000020),(189,0x1fffffffffffffffff,0x6bf493ff800000020)]
  (.n .l [] .l)) [] (.n (.n (.n .l [] .l) [] .l) [] (.n .l [] .l)))) [] (.n (.n (.n (.n (.n .l []
  .l) [] .l) [] (.n .l [] .l)) [] (.n (.n (.n .l [] .l) [] .l)
  [(130,0x1fffffffffffffffff,0x1fffefbff89ebf6c7e),(131,0x1fffffffffffffffff,0x1fffefbff89ebf6c7e),(154,0x1fffffffffffffffff,0x1fffefbff89ebf6c7e),(155,0x1fffffffffffffffff,0x1fffefbff89ebf6c7e),(158,0x1fffffffffffffffff,0x1fffefbff89ebf6c7e),(161,0x1fffffffffffffffff,0x1fffefbff89ebf6c7e),(162,0x1fffffffffffffffff,0x1fffefbff89ebf6c7e),(163,0x1fffffffffffffffff,0x1fffefbff89ebf6c7e),(164,0x1fffffffffffffffff,0x1fffefbff89ebf6c7e),(165,0x1fffffffffffffffff,0x1fffefbff89ebf6c7e),(166,0x1fffffffffffffffff,0x1fffefbff89ebf6c7e),(167,0x1fffffffffffffffff,0x1fffefbff89ebf6c7e),(168,0x1fffffffffffffffff,0x1fffefbff89ebf6c7e),(169,0x1fffffffffffffffff,0x1fffefbff89ebf6c7e),(170,0x1fffffffffffffffff,0x1fffefbff89ebf6c7e),(171,0x1fffffffffffffffff,0x1fffefbff89ebf6c7e),(172,0x1fffffffffffffffff,0x1fffefbff89ebf6c7e),(173,0x1fffffffffffffffff,0x1fffefbff89ebf6c7e),(174,0x1fffffffffffffffff,0x1fffefbff89ebf6c7e),(175,0x1fffffffffffffffff,0x1fffefbff89ebf6c7e),(176,0x1fffffffffffffffff,0x1fffefbff89ebf6c7e),(177,0x1fffffffffffffffff,0x1fffefbff89ebf6c7e),(178,0x1fffffffffffffffff,0x1fffefbff89ebf6c7e),(179,0x1fffffffffffffffff,0x1fffefbff89ebf6c7e),(180,0x1fffffffffffffffff,0x1fffefbff89ebf6c7e),(181,0x1fffffffffffffffff,0x1fffefbff89ebf6c7e),(182,0x1fffffffffffffffff,0x1fffefbff89ebf6c7e),(183,0x1fffffffffffffffff,0x1fffefbff89ebf6c7e),(184,0x1fffffffffffffffff,0x1fffefbff89ebf6c7e),(185,0x1fffffffffffffffff,0x1fffefbff89ebf6c7e),(186,0x1fffffffffffffffff,0x1fffefbff89ebf6c7e),(187,0x1fffffffffffffffff,0x1fffefbff89ebf6c7e),(188,0x1fffffffffffffffff,0x1fffefbff89ebf6c7e),(189,0x1fffffffffffffffff,0x1fffefbff89ebf6c7e)]
  (.n .l
  [(130,0x1fffffffffffffffff,0x163f49bff8929f6020),(131,0x1fffffffffffffffff,0x163f48bff8929f6020),(154,0x1fffffffffffffffff,0x163f49bff8929f6020),(155,0x1fffffffffffffffff,0x163f49bff8929f6020),(158,0x1fffffffffffffffff,0x163f49bff8929f6020),(161,0x1fffffffffffffffff,0x163f49bff8929f6020),(162,0x1fffffffffffffffff,0x163f49bff8929f6020),(163,0x1fffffffffffffffff,0x163f49bff8929f6020),(164,0x1fffffffffffffffff,0x163f49bff8929f6020),(165,0x1fffffffffffffffff,0x163f49bff8929f6020),(166,0x1fffffffffffffffff,0x163f49bff8929f6020),(167,0x1fffffffffffffffff,0x163f49bff8929f6020),(168,0x1fffffffffffffffff,0x163f49bff8929f6020),(169,0x1fffffffffffffffff,0x163f49bff8929f6020),(170,0x1fffffffffffffffff,0x163f49bff8929f6020),(171,0x1fffffffffffffffff,0x163f49bff8929f6020),(172,0x1fffffffffffffffff,0x163f49bff8929f6020),(173,0x1fffffffffffffffff,0x163f49bff8929f6020),(174,0x1fffffffffffffffff,0x163f49bff8929f6020),(175,0x1fffffffffffffffff,0x163f49bff8929f6020),(176,0x1fffffffffffffffff,0x163f49bff8929f6020),(177,0x1fffffffffffffffff,0x163f49bff8929f6020),(178,0x1fffffffffffffffff,0x163f49bff8929f6020),(179,0x1fffffffffffffffff,0x163f49bff8929f6020),(180,0x1fffffffffffffffff,0x163f49bff8929f6020),(181,0x1fffffffffffffffff,0x163f49bff8929f6020),(182,0x1fffffffffffffffff,0x163f49bff8929f6020),(183,0x1fffffffffffffffff,0x163f49bff8929f6020),(184,0x1fffffffffffffffff,0x163f49bff8929f6020),(185,0x1fffffffffffffffff,0x163f49bff8929f6020),(186,0x1fffffffffffffffff,0x163f49bff8929f6020),(187,0x1fffffffffffffffff,0x163f49bff8929f6020),(188,0x1fffffffffffffffff,0x163f49bff8929f6020),(189,0x1fffffffffffffffff,0x163f49bff8929f6020)]
  .l))) [] (.n (.n (.n (.n .l [] .l) [] .l) [] (.n .l [] .l)) [] (.n (.n .l [] .l)
  [(130,0x1fffffffffffffffff,0x6bf4d3ff800000020),(131,0x1fffffffffffffffff,0x6bf4c3ff800000020),(154,0x1fffffffffffffffff,0x6bf4d3ff800000020),(155,0x1fffffffffffffffff,0x6bf4d3ff800000020),(158,0x1fffffffffffffffff,0x6bf4d3ff800000020),(161,0x1fffffffffffffffff,0x6bf4d3ff800000020),(162,0x1fffffffffffffffff,0x6bf4d3ff800000020),(163,0x1fffffffffffffffff,0x6bf4d3ff800000020),(164,0x1fffffffffffffffff,0x6bf4d3ff800000020),(165,0x1fffffffffffffffff,0x6bf4d3ff800000020),(166,0x1fffffffffffffffff,0x6bf4d3ff800000020),(167,0x1fffffffffffffffff,0x6bf4d3ff800000020),(168,0x1fffffffffffffffff,0x6bf4d3ff800000020),(169,0x1fffffffffffffffff,0x6bf4d3ff800000020),(170,0x1fffffffffffffffff,0x6bf4d3ff800000020),(171,0x1fffffffffffffffff,0x6bf4d3ff800000020),(172,0x1fffffffffffffffff,0x6bf4d3ff800000020),(173,0x1fffffffffffffffff,0x6bf4d3ff800000020),(174,0x1fffffffffffffffff,0x6bf4d3ff800000020),(175,0x1fffffffffffffffff,0x6bf4d3ff800000020),(176,0x1fffffffffffffffff,0x6bf4d3ff800000020),(177,0x1fffffffffffffffff,0x6bf4d3ff800000020),(178,0x1fffffffffffffffff,0x6bf4d3ff800000020),(179,0x1fffffffffffffffff,0x6bf4d3ff800000020),(180,0x1fffffffffffffffff,0x6bf4d3ff800000020),(181,0x1fffffffffffffffff,0x6bf4d3ff800000020),(182,0x1fffffffffffffffff,0x6bf4d3ff800000020),(183,0x1fffffffffffffffff,0x6bf4d3ff800000020),(184,0x1fffffffffffffffff,0x6bf4d3ff800000020),(185,0x1fffffffffffffffff,0x6bf4d3ff800000020),(186,0x1fffffffffffffffff,0x6bf4d3ff800000020),(187,0x1fffffffffffffffff,0x6bf4d3ff800000020),(188,0x1fffffffffffffffff,0x6bf4d3ff800000020),(189,0x1fffffffffffffffff,0x6bf4d3ff800000020)]
  (.n .l [] .l))))) [] (.n (.n (.n (.n (.n (.n .l [] .l) [] .l) [] (.n .l [] .l))
  [(130,0x1fffffffffffffffff,0x1e3f49bff8929f6020),(131,0x1fffffffffffffffff,0x1e3f48bff8929f6020),(140,0x1fffffffffffffffff,0x1000008000929f6020),(154,0x1fffffffffffffffff,0x1e3f49bff8929f6020),(155,0x1fffffffffffffffff,0x1e3f49bff8929f6020),(158,0x1fffffffffffffffff,0x1e3f49bff8929f6020),(161,0x1fffffffffffffffff,0x1e3f49bff8929f6020),(162,0x1fffffffffffffffff,0x1e3f49bff8929f6020),(163,0x1fffffffffffffffff,0x1e3f49bff8929f6020),(164,0x1fffffffffffffffff,0x1e3f49bff8929f6020),(165,0x1fffffffffffffffff,0x1e3f49bff8929f6020),(166,0x1fffffffffffffffff,0x1e3f49bff8929f6020),(167,0x1fffffffffffffffff,0x1e3f49bff8929f6020),(168,0x1fffffffffffffffff,0x1e3f49bff8929f6020),(169,0x1fffffffffffffffff,0x1e3f49bff8929f6020),(170,0x1fffffffffffffffff,0x1e3f49bff8929f6020),(171,0x1fffffffffffffffff,0x1e3f49bff8929f6020),(172,0x1fffffffffffffffff,0x1e3f49bff8929f6020),(173,0x1fffffffffffffffff,0x1e3f49bff8929f6020),(174,0x1fffffffffffffffff,0x1e3f49bff8929f6020),(175,0x1fffffffffffffffff,0x1e3f49bff8929f6020),(176,0x1fffffffffffffffff,0x1e3f49bff8929f6020),(177,0x1fffffffffffffffff,0x1e3f49bff8929f6020),(178,0x1fffffffffffffffff,0x1e3f49bff8929f6020),(179,0x1fffffffffffffffff,0x1e3f49bff8929f6020),(180,0x1fffffffffffffffff,0x1e3f49bff8929f6020),(181,0x1fffffffffffffffff,0x1e3f49bff8929f6020),(182,0x1fffffffffffffffff,0x1e3f49bff8929f6020),(183,0x1fffffffffffffffff,0x1e3f49bff8929f6020),(184,0x1fffffffffffffffff,0x1e3f49bff8929f6020),(185,0x1fffffffffffffffff,0x1e3f49bff8929f6020),(186,0x1fffffffffffffffff,0x1e3f49bff8929f6020),(187,0x1fffffffffffffffff,0x1e3f49bff8929f6020),(188,0x1fffffffffffffffff,0x1e3f49bff8929f6020),(189,0x1fffffffffffffffff,0x1e3f49bff8929f6020)]
  (.n (.n (.n .l [] .l) [] .l)
  [(130,0x1fffffffffffffffff,0x1fffefbff89ebf6c7e),(131,0x1fffffffffffffffff,0x1fffefbff89ebf6c7e),(154,0x1fffffffffffffffff,0x1fffefbff89ebf6c7e),(155,0x1fffffffffffffffff,0x1fffefbff89ebf6c7e),(158,0x1fffffffffffffffff,0x1fffefbff89ebf6c7e),(161,0x1fffffffffffffffff,0x1fffefbff89ebf6c7e),(162,0x1fffffffffffffffff,0x1fffefbff89ebf6c7e),(163,0x1fffffffffffffffff,0x1fffefbff89ebf6c7e),(164,0x1fffffffffffffffff,0x1fffefbff89ebf6c7e),(165,0x1fffffffffffffffff,0x1fffefbff89ebf6c7e),(166,0x1fffffffffffffffff,0x1fffefbff89ebf6c7e),(167,0x1fffffffffffffffff,0x1fffefbff89ebf6c7e),(168,0x1fffffffffffffffff,0x1fffefbff89ebf6c7e),(169,0x1fffffffffffffffff,0x1fffefbff89ebf6c7e),(170,0x1fffffffffffffffff,0x1fffefbff89ebf6c7e),(171,0x1fffffffffffffffff,0x1fffefbff89ebf6c7e),(172,0x1fffffffffffffffff,0x1fffefbff89ebf6c7e),(173,0x1fffffffffffffffff,0x1fffefbff89ebf6c7e),(174,0x1fffffffffffffffff,0x1fffefbff89ebf6c7e),(175,0x1fffffffffffffffff,0x1fffefbff89ebf6c7e),(176,0x1fffffffffffffffff,0x1fffefbff89ebf6c7e),(177,0x1fffffffffffffffff,0x1fffefbff89ebf6c7e),(178,0x1fffffffffffffffff,0x1fffefbff89ebf6c7e),(179,0x1fffffffffffffffff,0x1fffefbff89ebf6c7e),(180,0x1fffffffffffffffff,0x1fffefbff89ebf6c7e),(181,0x1fffffffffffffffff,0x1fffefbff89ebf6c7e),(182,0x1fffffffffffffffff,0x1fffefbff89ebf6c7e),(183,0x1fffffffffffffffff,0x1fffefbff89ebf6c7e),(184,0x1fffffffffffffffff,0x1fffefbff89ebf6c7e),(185,0x1fffffffffffffffff,0x1fffefbff89ebf6c7e),(186,0x1fffffffffffffffff,0x1fffefbff89ebf6c7e),(187,0x1fffffffffffffffff,0x1fffefbff89ebf6c7e),(188,0x1fffffffffffffffff,0x1fffefbff89ebf6c7e),(189,0x1fffffffffffffffff,0x1fffefbff89ebf6c7e)]
  (.n .l [] .l))) [] (.n (.n (.n (.n .l [] .l)
  [(141,0x1fffffffffffffffff,0x88000000000000000),(142,0x1fffffffffffffffff,0x88100000000000000),(143,0x1fffffffffffffffff,0x88100000000000000)]
  .l)
  [(139,0x1fffffffffffffffff,0x4000000000020074),(153,0x1fffffffffffffffff,0x2000000000000),(156,0x1fffffffffffffffff,0x4004000000020074),(157,0x1fffffffffffffffff,0x2000000000000)]
  (.n .l [] .l)) [] (.n (.n .l
  [(130,0x1fffffffffffffffff,0x163f49bff8929f6020),(131,0x1fffffffffffffffff,0x163f48bff8929f6020),(154,0x1fffffffffffffffff,0x163f49bff8929f6020),(155,0x1fffffffffffffffff,0x163f49bff8929f6020),(158,0x1fffffffffffffffff,0x163f49bff8929f6020),(161,0x1fffffffffffffffff,0x163f49bff8929f6020),(162,0x1fffffffffffffffff,0x163f49bff8929f6020),(163,0x1fffffffffffffffff,0x163f49bff8929f6020),(164,0x1fffffffffffffffff,0x163f49bff8929f6020),(165,0x1fffffffffffffffff,0x163f49bff8929f6020),(166,0x1fffffffffffffffff,0x163f49bff8929f6020),(167,0x1fffffffffffffffff,0x163f49bff8929f6020),(168,0x1fffffffffffffffff,0x163f49bff8929f6020),(169,0x1fffffffffffffffff,0x163f49bff8929f6020),(170,0x1fffffffffffffffff,0x163f49bff8929f6020),(171,0x1fffffffffffffffff,0x163f49bff8929f6020),(172,0x1fffffffffffffffff,0x163f49bff8929f6020),(173,0x1fffffffffffffffff,0x163f49bff8929f6020),(174,0x1fffffffffffffffff,0x163f49bff8929f6020),(175,0x1fffffffffffffffff,0x163f49bff8929f6020),(176,0x1fffffffffffffffff,0x163f49bff8929f6020),(177,0x1fffffffffffffffff,0x163f49bff8929f6020),(178,0x1fffffffffffffffff,0x163f49bff8929f6020),(179,0x1fffffffffffffffff,0x163f49bff8929f6020),(180,0x1fffffffffffffffff,0x163f49bff8929f6020),(181,0x1fffffffffffffffff,0x163f49bff8929f6020),(182,0x1fffffffffffffffff,0x163f49bff8929f6020),(183,0x1fffffffffffffffff,0x163f49bff8929f6020),(184,0x1fffffffffffffffff,0x163f49bff8929f6020),(185,0x1fffffffffffffffff,0x163f49bff8929f6020),(186,0x1fffffffffffffffff,0x163f49bff8929f6020),(187,0x1fffffffffffffffff,0x163f49bff8929f6020),(188,0x1fffffffffffffffff,0x163f49bff8929f6020),(189,0x1fffffffffffffffff,0x163f49bff8929f6020)]
  .l) [] (.n .l [] .l)))) [] (.n (.n (.n (.n (.n .l [] .l)
  [(193,0x1fffffffffffffffff,0x4000000000020074)] .l) [] (.n .l [] .l))
  [(130,0x1fffffffffffffffff,0x163f49bff8929f6020),(131,0x1fffffffffffffffff,0x163f48bff8929f6020),(134,0x1fffffffffffffffff,0x1000008000929f6020),(148,0x1fffffffffffffffff,0x1000008000929f6020),(154,0x1fffffffffffffffff,0x163f49bff8929f6020),(155,0x1fffffffffffffffff,0x163f49bff8929f6020),(158,0x1fffffffffffffffff,0x163f49bff8929f6020),(161,0x1fffffffffffffffff,0x163f49bff8929f6020),(162,0x1fffffffffffffffff,0x163f49bff8929f6020),(163,0x1fffffffffffffffff,0x163f49bff8929f6020),(164,0x1fffffffffffffffff,0x163f49bff8929f6020),(165,0x1fffffffffffffffff,0x163f49bff8929f6020),(166,0x1fffffffffffffffff,0x163f49bff8929f6020),(167,0x1fffffffffffffffff,0x163f49bff8929f6020),(168,0x1fffffffffffffffff,0x163f49bff8929f6020),(169,0x1fffffffffffffffff,0x163f49bff8929f6020),(170,0x1fffffffffffffffff,0x163f49bff8929f6020),(171,0x1fffffffffffffffff,0x163f49bff8929f6020),(172,0x1fffffffffffffffff,0x163f49bff8929f6020),(173,0x1fffffffffffffffff,0x163f49bff8929f6020),(174,0x1fffffffffffffffff,0x163f49bff8929f6020),(175,0x1fffffffffffffffff,0x163f49bff8929f6020),(176,0x1fffffffffffffffff,0x163f49bff8929f6020),(177,0x1fffffffffffffffff,0x163f49bff8929f6020),(178,0x1fffffffffffffffff,0x163f49bff8929f6020),(179,0x1fffffffffffffffff,0x163f49bff8929f6020),(180,0x1fffffffffffffffff,0x163f49bff8929f6020),(181,0x1fffffffffffffffff,0x163f49bff8929f6020),(182,0x1fffffffffffffffff,0x163f49bff8929f6020),(183,0x1fffffffffffffffff,0x163f49bff8929f6020),(184,0x1fffffffffffffffff,0x163f49bff8929f6020),(185,0x1fffffffffffffffff,0x163f49bff8929f6020),(186,0x1fffffffffffffffff,0x163f49bff8929f6020),(187,0x1fffffffffffffffff,0x163f49bff8929f6020),(188,0x1fffffffffffffffff,0x163f49bff8929f6020),(189,0x1fffffffffffffffff,0x163f49bff8929f6020)]
  (.n (.n (.n .l [] .l) [] .l)
  [(130,0x1fffffffffffffffff,0x63f4b3ff800000000),(131,0x1fffffffffffffffff,0x63f4a3ff800000000),(154,0x1fffffffffffffffff,0x63f4b3ff800000000),(155,0x1fffffffffffffffff,0x63f4b3ff800000000),(158,0x1fffffffffffffffff,0x63f4b3ff800000000),(161,0x1fffffffffffffffff,0x63f4b3ff800000000),(162,0x1fffffffffffffffff,0x63f4b3ff800000000),(163,0x1fffffffffffffffff,0x63f4b3ff800000000),(164,0x1fffffffffffffffff,0x63f4b3ff800000000),(165,0x1fffffffffffffffff,0x63f4b3ff800000000),(166,0x1fffffffffffffffff,0x63f4b3ff800000000),(167,0x1fffffffffffffffff,0x63f4b3ff800000000),(168,0x1fffffffffffffffff,0x63f4b3ff800000000),(169,0x1fffffffffffffffff,0x63f4b3ff800000000),(170,0x1fffffffffffffffff,0x63f4b3ff800000000),(171,0x1fffffffffffffffff,0x63f4b3ff800000000),(172,0x1fffffffffffffffff,0x63f4b3ff800000000),(173,0x1fffffffffffffffff,0x63f4b3ff800000000),(174,0x1fffffffffffffffff,0x63f4b3ff800000000),(175,0x1fffffffffffffffff,0x63f4b3ff800000000),(176,0x1fffffffffffffffff,0x63f4b3ff800000000),(177,0x1fffffffffffffffff,0x63f4b3ff800000000),(178,0x1fffffffffffffffff,0x63f4b3ff800000000),(179,0x1fffffffffffffffff,0x63f4b3ff800000000),(180,0x1fffffffffffffffff,0x63f4b3ff800000000),(181,0x1fffffffffffffffff,0x63f4b3ff800000000),(182,0x1fffffffffffffffff,0x63f4b3ff800000000),(183,0x1fffffffffffffffff,0x63f4b3ff800000000),(184,0x1fffffffffffffffff,0x63f4b3ff800000000),(185,0x1fffffffffffffffff,0x63f4b3ff800000000),(186,0x1fffffffffffffffff,0x63f4b3ff800000000),(187,0x1fffffffffffffffff,0x63f4b3ff800000000),(188,0x1fffffffffffffffff,0x63f4b3ff800000000),(189,0x1fffffffffffffffff,0x63f4b3ff800000000)]
  (.n .l [] .l)))
  [(141,0x1fffffffffffffffff,0x2010000000000000),(142,0x1fffffffffffffffff,0x2110000000000000),(143,0x1fffffffffffffffff,0x2110000000000000)]
  (.n (.n (.n (.n .l [] .l) [] .l)
  [(130,0x1fffffffffffffffff,0x163f49bff8929f6020),(131,0x1fffffffffffffffff,0x163f48bff8929f6020),(134,0x1fffffffffffffffff,0x1000008000929f6020),(148,0x1fffffffffffffffff,0x1000008000929f6020),(154,0x1fffffffffffffffff,0x163f49bff8929f6020),(155,0x1fffffffffffffffff,0x163f49bff8929f6020),(158,0x1fffffffffffffffff,0x163f49bff8929f6020),(161,0x1fffffffffffffffff,0x163f49bff8929f6020),(162,0x1fffffffffffffffff,0x163f49bff8929f6020),(163,0x1fffffffffffffffff,0x163f49bff8929f6020),(164,0x1fffffffffffffffff,0x163f49bff8929f6020),(165,0x1fffffffffffffffff,0x163f49bff8929f6020),(166,0x1fffffffffffffffff,0x163f49bff8929f6020),(167,0x1fffffffffffffffff,0x163f49bff8929f6020),(168,0x1fffffffffffffffff,0x163f49bff8929f6020),(169,0x1fffffffffffffffff,0x163f49bff8929f6020),(170,0x1fffffffffffffffff,0x163f49bff8929f6020),(171,0x1fffffffffffffffff,0x163f49bff8929f6020),(172,0x1fffffffffffffffff,0x163f49bff8929f6020),(173,0x1fffffffffffffffff,0x163f49bff8929f6020),(174,0x1fffffffffffffffff,0x163f49bff8929f6020),(175,0x1fffffffffffffffff,0x163f49bff8929f6020),(176,0x1fffffffffffffffff,0x163f49bff8929f6020),(177,0x1fffffffffffffffff,0x163f49bff8929f6020),(178,0x1fffffffffffffffff,0x163f49bff8929f6020),(179,0x1fffffffffffffffff,0x163f49bff8929f6020),(180,0x1fffffffffffffffff,0x163f49bff8929f6020),(181,0x1fffffffffffffffff,0x163f49bff8929f6020),(182,0x1fffffffffffffffff,0x163f49bff8929f6020),(183,0x1fffffffffffffffff,0x163f49bff8929f6020),(184,0x1fffffffffffffffff,0x163f49bff8929f6020),(185,0x1fffffffffffffffff,0x163f49bff8929f6020),(186,0x1fffffffffffffffff,0x163f49bff8929f6020),(187,0x1fffffffffffffffff,0x163f49bff8929f6020),(188,0x1fffffffffffffffff,0x163f49bff8929f6020),(189,0x1fffffffffffffffff,0x163f49bff8929f6020)]
  (.n .l [(203,0x1fffffffffffffffff,0x8004000000000000)] .l))
  [(130,0x1fffffffffffffffff,0x6bf4d3ff800000020),(131,0x1fffffffffffffffff,0x6bf4c3ff800000020),(154,0x1fffffffffffffffff,0x6bf4d3ff800000020),(155,0x1fffffffffffffffff,0x6bf4d3ff800000020),(158,0x1fffffffffffffffff,0x6bf4d3ff800000020),(161,0x1fffffffffffffffff,0x6bf4d3ff800000020),(162,0x1fffffffffffffffff,0x6bf4d3ff800000020),(163,0x1fffffffffffffffff,0x6bf4d3ff800000020),(164,0x1fffffffffffffffff,0x6bf4d3ff800000020),(165,0x1fffffffffffffffff,0x6bf4d3ff800000020),(166,0x1fffffffffffffffff,0x6bf4d3ff800000020),(167,0x1fffffffffffffffff,0x6bf4d3ff800000020),(168,0x1fffffffffffffffff,0x6bf4d3ff800000020),(169,0x1fffffffffffffffff,0x6bf4d3ff800000020),(170,0x1fffffffffffffffff,0x6bf4d3ff800000020),(171,0x1fffffffffffffffff,0x6bf4d3ff800000020),(172,0x1fffffffffffffffff,0x6bf4d3ff800000020),(173,0x1fffffffffffffffff,0x6bf4d3ff800000020),(174,0x1fffffffffffffffff,0x6bf4d3ff800000020),(175,0x1fffffffffffffffff,0x6bf4d3ff800000020),(176,0x1fffffffffffffffff,0x6bf4d3ff800000020),(177,0x1fffffffffffffffff,0x6bf4d3ff800000020),(178,0x1fffffffffffffffff,0x6bf4d3ff800000020),(179,0x1fffffffffffffffff,0x6bf4d3ff800000020),(180,0x1fffffffffffffffff,0x6bf4d3ff800000020),(181,0x1fffffffffffffffff,0x6bf4d3ff800000020),(182,0x1fffffffffffffffff,0x6bf4d3ff800000020),(183,0x1fffffffffffffffff,0x6bf4d3ff800000020),(184,0x1fffffffffffffffff,0x6bf4d3ff800000020),(185,0x1fffffffffffffffff,0x6bf4d3ff800000020),(186,0x1fffffffffffffffff,0x6bf4d3ff800000020),(187,0x1fffffffffffffffff,0x6bf4d3ff800000020),(188,0x1fffffffffffffffff,0x6bf4d3ff800000020),(189,0x1fffffffffffffffff,0x6bf4d3ff800000020),(202,0x1fffffffffffffffff,0x8004000000000020)]
  (.n (.n .l [] .l) [] (.n .l
  [(130,0x1fffffffffffffffff,0x163f49bff8929f6020),(131,0x1fffffffffffffffff,0x163f48bff8929f6020),(154,0x1fffffffffffffffff,0x163f49bff8929f6020),(155,0x1fffffffffffffffff,0x163f49bff8929f6020),(158,0x1fffffffffffffffff,0x163f49bff8929f6020),(161,0x1fffffffffffffffff,0x163f49bff8929f6020),(162,0x1fffffffffffffffff,0x163f49bff8929f6020),(163,0x1fffffffffffffffff,0x163f49bff8929f6020),(164,0x1fffffffffffffffff,0x163f49bff8929f6020),(165,0x1fffffffffffffffff,0x163f49bff8929f6020),(166,0x1fffffffffffffffff,0x163f49bff8929f6020),(167,0x1fffffffffffffffff,0x163f49bff8929f6020),(168,0x1fffffffffffffffff,0x163f49bff8929f6020),(169,0x1fffffffffffffffff,0x163f49bff8929f6020),(170,0x1fffffffffffffffff,0x163f49bff8929f6020),(171,0x1fffffffffffffffff,0x163f49bff8929f6020),(172,0x1fffffffffffffffff,0x163f49bff8929f6020),(173,0x1fffffffffffffffff,0x163f49bff8929f6020),(174,0x1fffffffffffffffff,0x163f49bff8929f6020),(175,0x1fffffffffffffffff,0x163f49bff8929f6020),(176,0x1fffffffffffffffff,0x163f49bff8929f6020),(177,0x1fffffffffffffffff,0x163f49bff8929f6020),(178,0x1fffffffffffffffff,0x163f49bff8929f6020),(179,0x1fffffffffffffffff,0x163f49bff8929f6020),(180,0x1fffffffffffffffff,0x163f49bff8929f6020),(181,0x1fffffffffffffffff,0x163f49bff8929f6020),(182,0x1fffffffffffffffff,0x163f49bff8929f6020),(183,0x1fffffffffffffffff,0x163f49bff8929f6020),(184,0x1fffffffffffffffff,0x163f49bff8929f6020),(185,0x1fffffffffffffffff,0x163f49bff8929f6020),(186,0x1fffffffffffffffff,0x163f49bff8929f6020),(187,0x1fffffffffffffffff,0x163f49bff8929f6020),(188,0x1fffffffffffffffff,0x163f49bff8929f6020),(189,0x1fffffffffffffffff,0x163f49bff8929f6020)]
  .l)))))))))
/-- left and right-hand sides of the rules -/
def ruleTab : Bt (Nat × List Nat) :=
  (.n (.n (.n (.n (.n (.n (.n (.n (.n .l (168,[131,41,131]) .l) (153,[4]) .l) (132,[2]) (.n (.n .l
  (198,[198,131]) .l) (159,[47,7,55,131,5,63,5]) .l)) (129,[160,19,4,146,52,138]) (.n (.n (.n .l
  (187,[131,51,0,55,131,203,63]) .l) (159,[47,7,55,5,131,63,5,5]) .l) (147,[4]) (.n .l (160,[201])
  .l))) (129,[23,4,141,52,131]) (.n (.n (.n (.n .l (178,[181]) .l) (157,[153]) .l)
  (139,[17,4,2,15,52,148,193]) (.n (.n .l (201,[201,159]) .l) (159,[47,7,55,131,63,5,5,5,5,5,5])
  .l)) (130,[10,2]) (.n (.n (.n .l (193,[193,5]) .l) (159,[47,7,55,5,5,63,5,5,5,5,5,5,5]) .l)
  (148,[56,30,149,49,131,131,64]) (.n .l (162,[163]) .l)))) (129,[14,4]) (.n (.n (.n (.n (.n .l
  (172,[177]) .l) (155,[53,193,62]) .l) (136,[148]) (.n (.n .l (200,[139]) .l)
  (159,[47,7,55,131,5,63,5,5,5,5,5,5,5,5,5]) .l)) (130,[10,27]) (.n (.n (.n .l (190,[190,129,5])
  .l) (159,[47,7,55,5,131,63,5,5,5,5,5,5,5,5,5,5]) .l) (148,[56,5,30,150,49,131,131,64]) (.n .l
  (161,[1,5,63]) .l))) (129,[160,20,4,141,61,52,136]) (.n (.n (.n (.n .l (183,[131,66,131]) .l)
  (159,[47,7,55,5,131,5,63,5,5,5,5,5]) .l) (141,[142]) (.n (.n .l (203,[203]) .l)
  (159,[47,7,55,63,5,5,5]) .l)) (130,[158]) (.n (.n (.n .l (197,[197,50,131]) .l)
  (159,[47,7,55,5,63,5,5,5,5]) .l) (148,[56,30,151,49,131,131,64]) (.n .l (163,[168]) .l)))))
  (129,[18,132]) (.n (.n (.n (.n (.n (.n .l (172,[173]) .l) (154,[56,193,64]) .l) (134,[131]) (.n
  (.n .l (200,[156,199]) .l) (159,[47,7,55,131,5,63,5,5,5,5,5]) .l)) (129,[160,25,133]) (.n (.n
  (.n .l (189,[131,51,131]) .l) (159,[47,7,55,5,131,63,5,5,5,5,5,5]) .l)
  (148,[56,5,30,149,49,131,131,64]) (.n .l (161,[1,5,131,63]) .l))) (129,[160,31,4,52,134]) (.n
  (.n (.n (.n .l (179,[131,60,131]) .l) (159,[47,7,55,5,131,5,63,5]) .l) (139,[17,4,2,52,152,193])
  (.n (.n .l (202,[202,50,131]) .l) (159,[47,7,55,131,63,5,5,5,5,5,5,5,5,5,5]) .l)) (130,[155])
  (.n (.n (.n .l (195,[195,144]) .l) (159,[47,7,55,5,63]) .l) (148,[56,30,150,49,131,131,64]) (.n
  .l (163,[164]) .l)))) (129,[160,23,4,141,52,131]) (.n (.n (.n (.n (.n .l (176,[131,37,131]) .l)
  (156,[157,49,131]) .l) (138,[155]) (.n (.n .l (200,[200,156]) .l) (159,[47,7,55,131,63,5,5])
  .l)) (130,[10,11]) (.n (.n (.n .l (191,[191,50,147]) .l) (159,[47,7,55,5,5,63,5,5,5]) .l)
  (148,[56,5,30,151,49,131,131,64]) (.n .l (161,[1,131,63]) .l))) (129,[160,17,4,145,15,52,137])
  (.n (.n (.n (.n .l (185,[188]) .l) (159,[47,7,55,5,131,5,63,5,5,5,5,5,5,5,5,5]) .l)
  (144,[56,64]) (.n .l (159,[47,7,55,63,5,5,5,5,5,5,5]) .l)) (131,[55,130,63]) (.n (.n (.n .l
  (198,[131]) .l) (159,[47,7,55,5,63,5,5,5,5,5,5,5,5]) .l) (150,[55,4,50,4,63,34,131]) (.n .l
  (164,[131,39,131]) .l)))))) (128,[]) (.n (.n (.n (.n (.n (.n (.n .l (170,[131,43,131]) .l)
  (153,[2]) .l) (133,[4,55,4,141,63,141,35,131]) (.n (.n .l (199,[199,50,156]) .l)
  (159,[47,7,55,131,5,63,5,5,5]) .l)) (129,[160,28,4,52,140]) (.n (.n (.n .l (188,[131,38,131])
  .l) (159,[47,7,55,5,131,63,5,5,5,5]) .l) (147,[46]) (.n .l (161,[1,5,131,202,63]) .l)))
  (129,[160,31,4,141,61,52,134]) (.n (.n (.n (.n .l (178,[183]) .l)
  (158,[55,131,50,131,197,63,35,131]) .l) (139,[17,4,2,52,155,193]) (.n (.n .l (202,[50,131]) .l)
  (159,[47,7,55,131,63,5,5,5,5,5,5,5,5]) .l)) (130,[3]) (.n (.n (.n .l (194,[194,67,131]) .l)
  (159,[47,7,55,5,5,63,5,5,5,5,5,5,5,5,5]) .l) (148,[56,30,149,49,131,64]) (.n .l (162,[178])
  .l)))) (129,[160,23,4,141,61,52,131]) (.n (.n (.n (.n (.n .l (174,[131,36,131]) .l)
  (155,[53,62]) .l) (137,[148]) (.n (.n .l (200,[200,156,199]) .l) (159,[47,7,55,131,63]) .l))
  (130,[10,21]) (.n (.n (.n .l (190,[190,5]) .l) (159,[47,7,55,5,5,63,5]) .l)
  (148,[56,5,30,150,49,131,64]) (.n .l (161,[1,131,202,63]) .l))) (129,[20,4,141,61,52,136]) (.n
  (.n (.n (.n .l (185,[186]) .l) (159,[47,7,55,5,131,5,63,5,5,5,5,5,5,5]) .l) (142,[143]) (.n .l
  (159,[47,7,55,63,5,5,5,5,5]) .l)) (131,[130]) (.n (.n (.n .l (198,[131,197]) .l)
  (159,[47,7,55,5,63,5,5,5,5,5,5]) .l) (148,[56,30,151,49,131,64]) (.n .l (163,[170]) .l)))))
  (129,[14,4,29,155]) (.n (.n (.n (.n (.n (.n .l (172,[175]) .l) (154,[56,64]) .l) (135,[2]) (.n
  (.n .l (200,[156]) .l) (159,[47,7,55,131,5,63,5,5,5,5,5,5,5]) .l)) (130,[10,26]) (.n (.n (.n .l
  (190,[129]) .l) (159,[47,7,55,5,131,63,5,5,5,5,5,5,5,5]) .l) (148,[56,5,30,149,49,131,64]) (.n
  .l (161,[1,5,202,63]) .l))) (129,[31,4,141,52,134]) (.n (.n (.n (.n .l (181,[57,131]) .l)
  (159,[47,7,55,5,131,5,63,5,5,5]) .l) (140,[131]) (.n (.n .l (203,[]) .l) (159,[47,7,55,63,5])
  .l)) (130,[161]) (.n (.n (.n .l (196,[196,67,141]) .l) (159,[47,7,55,5,63,5,5]) .l)
  (148,[56,30,150,49,131,64]) (.n .l (163,[166]) .l)))) (129,[23,4,141,61,52,131]) (.n (.n (.n (.n
  (.n .l (178,[179]) .l) (156,[157,49,148]) .l) (138,[152]) (.n (.n .l (200,[200,139]) .l)
  (159,[47,7,55,131,63,5,5,5,5]) .l)) (130,[10,4]) (.n (.n (.n .l (192,[192,50,4,141]) .l)
  (159,[47,7,55,5,5,63,5,5,5,5,5]) .l) (148,[56,5,30,151,49,131,64]) (.n .l (161,[1,202,63]) .l)))
  (129,[17,4,145,15,52,137]) (.n (.n (.n (.n .l (186,[131,56,61,131,64]) .l)
  (159,[47,7,55,5,131,63]) .l) (146,[2]) (.n .l (159,[47,7,55,63,5,5,5,5,5,5,5,5,5]) .l))
  (132,[53,147,62,24,2]) (.n (.n (.n .l (198,[198,131,197]) .l)
  (159,[47,7,55,5,63,5,5,5,5,5,5,5,5,5,5]) .l) (152,[5,33,55,131,63,131]) (.n .l
  (166,[131,40,131]) .l))))))) (128,[190]) (.n (.n (.n (.n (.n (.n (.n (.n .l (169,[131,42,131])
  .l) (153,[6]) .l) (133,[4,55,4,141,192,63,141,35,131]) (.n (.n .l (199,[50,156]) .l)
  (159,[47,7,55,131,5,63,5,5]) .l)) (129,[19,4,146,52,138]) (.n (.n (.n .l
  (187,[131,51,0,55,203,63]) .l) (159,[47,7,55,5,131,63,5,5,5]) .l) (147,[46,32,4]) (.n .l
  (161,[1,5,131,202,5,63]) .l))) (129,[23,4,141]) (.n (.n (.n (.n .l (178,[182]) .l)
  (158,[131,35,131]) .l) (139,[17,4,2,15,52,152,193]) (.n (.n .l (202,[50,5,131]) .l)
  (159,[47,7,55,131,63,5,5,5,5,5,5,5]) .l)) (130,[2]) (.n (.n (.n .l (194,[67,131]) .l)
  (159,[47,7,55,5,5,63,5,5,5,5,5,5,5,5]) .l) (148,[56,30,149,49,131,5,64]) (.n .l (162,[172])
  .l)))) (129,[16,4,52,135]) (.n (.n (.n (.n (.n .l (173,[131,45,131]) .l) (155,[53,200,62]) .l)
  (137,[155]) (.n (.n .l (200,[200,156,199,193]) .l) (159,[47,7,55,131,5,63,5,5,5,5,5,5,5,5,5,5])
  .l)) (130,[27]) (.n (.n (.n .l (190,[190,129]) .l) (159,[47,7,55,5,5,63]) .l)
  (148,[56,5,30,150,49,131,5,64]) (.n .l (161,[1,131,202,5,63]) .l))) (129,[160,20,4,141,52,136])
  (.n (.n (.n (.n .l (184,[131,57,131]) .l) (159,[47,7,55,5,131,5,63,5,5,5,5,5,5]) .l) (142,[4])
  (.n .l (159,[47,7,55,63,5,5,5,5]) .l)) (131,[130,48]) (.n (.n (.n .l (198,[131,197,193]) .l)
  (159,[47,7,55,5,63,5,5,5,5,5]) .l) (148,[56,30,151,49,131,5,64]) (.n .l (163,[169]) .l)))))
  (129,[14,4,29,155,32,4]) (.n (.n (.n (.n (.n (.n .l (172,[174]) .l) (154,[56,198,64]) .l)
  (134,[148]) (.n (.n .l (200,[156,193]) .l) (159,[47,7,55,131,5,63,5,5,5,5,5,5]) .l))
  (129,[25,133]) (.n (.n (.n .l (190,[129,5]) .l) (159,[47,7,55,5,131,63,5,5,5,5,5,5,5]) .l)
  (148,[56,5,30,149,49,131,5,64]) (.n .l (161,[1,5,202,5,63]) .l))) (129,[31,4,141,61,52,134]) (.n
  (.n (.n (.n .l (180,[131,65,131]) .l) (159,[47,7,55,5,131,5,63,5,5]) .l) (140,[131,194]) (.n (.n
  .l (203,[50,131]) .l) (159,[47,7,55,63]) .l)) (130,[10,161]) (.n (.n (.n .l (196,[67,141]) .l)
  (159,[47,7,55,5,63,5]) .l) (148,[56,30,150,49,131,5,64]) (.n .l (163,[165]) .l))))
  (129,[160,23,4,141]) (.n (.n (.n (.n (.n .l (177,[131,61,131,49,131]) .l) (156,[157,49,148,61])
  .l) (138,[148]) (.n (.n .l (200,[200,139,193]) .l) (159,[47,7,55,131,63,5,5,5]) .l)) (130,[11])
  (.n (.n (.n .l (192,[50,4,141]) .l) (159,[47,7,55,5,5,63,5,5,5,5]) .l)
  (148,[56,5,30,151,49,131,5,64]) (.n .l (161,[1,202,5,63]) .l))) (129,[160,17,4,145,52,137]) (.n
  (.n (.n (.n .l (185,[189]) .l) (159,[47,7,55,5,131,5,63,5,5,5,5,5,5,5,5,5,5]) .l) (145,[2]) (.n
  .l (159,[47,7,55,63,5,5,5,5,5,5,5,5]) .l)) (132,[53,147,191,62,24,2]) (.n (.n (.n .l
  (198,[198,131,197,193]) .l) (159,[47,7,55,5,63,5,5,5,5,5,5,5,5,5]) .l) (151,[4,34,22,55,131,63])
  (.n .l (165,[131,58,131]) .l)))))) (129,[13,52,2]) (.n (.n (.n (.n (.n (.n (.n .l
  (171,[131,44,131]) .l) (154,[56,193,198,64]) .l) (133,[4,55,63,141,35,131]) (.n (.n .l
  (200,[156,199,193]) .l) (159,[47,7,55,131,5,63,5,5,5,5]) .l)) (129,[28,4,52,140]) (.n (.n (.n .l
  (189,[131,51,61,131]) .l) (159,[47,7,55,5,131,63,5,5,5,5,5]) .l)
  (148,[56,5,30,149,49,131,131,5,64]) (.n .l (161,[1,5,131,5,63]) .l)))
  (129,[160,31,4,141,52,134]) (.n (.n (.n (.n .l (178,[184]) .l) (159,[47,7,55,5,131,5,63]) .l)
  (139,[17,4,2,52,148,193]) (.n (.n .l (202,[202,50,5,131]) .l)
  (159,[47,7,55,131,63,5,5,5,5,5,5,5,5,5]) .l)) (130,[154]) (.n (.n (.n .l (195,[144]) .l)
  (159,[47,7,55,5,5,63,5,5,5,5,5,5,5,5,5,5]) .l) (148,[56,30,150,49,131,131,5,64]) (.n .l
  (162,[185]) .l)))) (129,[160,23,4,141,61]) (.n (.n (.n (.n (.n .l (175,[48,131]) .l)
  (156,[157,49,131,61]) .l) (137,[152]) (.n (.n .l (200,[200,156,193]) .l)
  (159,[47,7,55,131,63,5]) .l)) (130,[21]) (.n (.n (.n .l (191,[50,147]) .l)
  (159,[47,7,55,5,5,63,5,5]) .l) (148,[56,5,30,151,49,131,131,5,64]) (.n .l (161,[1,131,5,63])
  .l))) (129,[20,4,141,52,136]) (.n (.n (.n (.n .l (185,[187]) .l)
  (159,[47,7,55,5,131,5,63,5,5,5,5,5,5,5,5]) .l) (143,[55,141,196,63]) (.n .l
  (159,[47,7,55,63,5,5,5,5,5,5]) .l)) (131,[55,130,63,48]) (.n (.n (.n .l (198,[131,193]) .l)
  (159,[47,7,55,5,63,5,5,5,5,5,5,5]) .l) (149,[4,34,131]) (.n .l (163,[171]) .l)))))
  (129,[14,4,32,4]) (.n (.n (.n (.n (.n (.n .l (172,[176]) .l) (155,[53,193,200,62]) .l)
  (136,[131]) (.n (.n .l (200,[139,193]) .l) (159,[47,7,55,131,5,63,5,5,5,5,5,5,5,5]) .l))
  (130,[26]) (.n (.n (.n .l (190,[5]) .l) (159,[47,7,55,5,131,63,5,5,5,5,5,5,5,5,5]) .l)
  (148,[56,5,30,150,49,131,131,5,64]) (.n .l (161,[1,5,5,63]) .l))) (129,[31,4,52,134]) (.n (.n
  (.n (.n .l (182,[131,59,131]) .l) (159,[47,7,55,5,131,5,63,5,5,5,5]) .l) (141,[142,195]) (.n (.n
  .l (203,[203,50,131]) .l) (159,[47,7,55,63,5,5]) .l)) (130,[162]) (.n (.n (.n .l (197,[50,131])
  .l) (159,[47,7,55,5,63,5,5,5]) .l) (148,[56,30,151,49,131,131,5,64]) (.n .l (163,[167]) .l))))
  (129,[23,4,141,61]) (.n (.n (.n (.n (.n .l (178,[180]) .l) (157,[17]) .l)
  (139,[17,4,2,15,52,155,193]) (.n (.n .l (201,[159]) .l) (159,[47,7,55,131,63,5,5,5,5,5]) .l))
  (130,[4]) (.n (.n (.n .l (193,[5]) .l) (159,[47,7,55,5,5,63,5,5,5,5,5,5]) .l)
  (148,[56,30,149,49,131,131,5,64]) (.n .l (161,[1,63]) .l))) (129,[17,4,145,52,137]) (.n (.n (.n
  (.n .l (186,[131,56,131,64]) .l) (159,[47,7,55,5,131,63,5]) .l) (147,[4,32,4]) (.n .l
  (159,[47,7,55,63,5,5,5,5,5,5,5,5,5,5]) .l)) (132,[147,24,2]) (.n (.n (.n .l (198,[198,131,193])
  .l) (159,[47,7,55,131,5,63]) .l) (152,[33,55,131,63,131]) (.n .l (167,[131,54,131]) .l))))))))
/-- rules of a nonterminal (by number minus 128) -/
def prodTab : Bt (List Nat) :=
  (.n (.n (.n (.n (.n (.n (.n .l [298,299] .l)
  [146,147,148,149,150,151,152,153,154,155,156,157,158,159,160,161,162,163,164,165,166,167,168,169,170,171,172,173,174,175,176,177,178,179,180,181,182,183,184,185,186,187,188,189,190,191,192,193,194,195,196,197,198,199,200,201,202,203,204,205,206,207,208,209,210,211,212,213,214,215,216,217,218,219,220,221,222]
  .l) [90] (.n .l [266] .l)) [69] (.n (.n (.n .l [320,321] .l) [254] .l) [124] (.n .l [279] .l)))
  [56,57,58,59] (.n (.n (.n (.n .l [306,307] .l) [243,244,245,246,247,248,249,250] .l)
  [94,95,96,97] (.n .l [275] .l)) [78,79,80,81,82,83] (.n (.n (.n .l [340,341,342,343] .l) [258]
  .l) [134,135,136,137] (.n .l [287,288] .l))))
  [2,3,4,5,6,7,8,9,10,11,12,13,14,15,16,17,18,19,20,21,22,23,24,25,26,27,28,29,30,31,32,33,34,35,36]
  (.n (.n (.n (.n (.n .l [302,303] .l)
  [224,225,226,227,228,229,230,231,232,233,234,235,236,237,238] .l) [92] (.n .l [268] .l))
  [72,73,74] (.n (.n (.n .l [334,335] .l) [256] .l) [127,128,129] (.n .l [281,282,283,284] .l)))
  [64,65,66] (.n (.n (.n (.n .l [310,311] .l) [252] .l) [122] (.n .l [277] .l)) [86,87] (.n (.n .l
  [264] .l) [142,143] (.n .l [290,291] .l))))) [0,1] (.n (.n (.n (.n (.n (.n .l [300,301] .l)
  [223] .l) [91] (.n .l [267] .l)) [70,71] (.n (.n (.n .l
  [322,323,324,325,326,327,328,329,330,331,332,333] .l) [255] .l) [125,126] (.n .l [280] .l)))
  [60,61,62,63] (.n (.n (.n (.n .l [308,309] .l) [251] .l)
  [98,99,100,101,102,103,104,105,106,107,108,109,110,111,112,113,114,115,116,117,118,119,120,121]
  (.n .l [276] .l)) [84,85] (.n (.n .l [259,260,261,262,263] .l) [138,139,140,141] (.n .l [289]
  .l)))) [37,38,39,40,41,42,43,44,45,46,47,48,49,50,51,52,53,54,55] (.n (.n (.n (.n (.n .l
  [304,305] .l) [239,240,241,242] .l) [93] (.n .l [269,270,271,272,273,274] .l)) [75,76,77] (.n
  (.n (.n .l [336,337,338,339] .l) [257] .l) [130,131,132,133] (.n .l [285,286] .l))) [67,68] (.n
  (.n (.n (.n .l [312,313,314,315,316,317,318,319] .l) [253] .l) [123] (.n .l [278] .l)) [88,89]
  (.n (.n .l [265] .l) [144,145] (.n .l [292,293,294,295,296,297] .l))))))
/-- first tokens of a nonterminal (by number minus 128) -/
def firstTab : Bt Nat :=
  (.n (.n (.n (.n (.n (.n (.n .l 0x4000000000000 .l) 0x800000000000 .l) 0x80000000000000 (.n .l
  0x1000000000000 .l)) 0x4 (.n (.n (.n .l 0x4000000000000 .l) 0x3a100000c200c1e .l) 0x10 (.n .l
  0x3a100000c200c1e .l))) 0x3a100000c200c1e (.n (.n (.n (.n .l 0x100000000000000 .l)
  0x3a100000c200c1e .l) 0x400000000010 (.n .l 0x3a100000c200c1e .l)) 0x20000 (.n (.n (.n .l
  0x4000000000000 .l) 0x3a100000c200c1e .l) 0x20000000000000 (.n .l 0x3a100000c200c1e .l))))
  0x8000929f6000 (.n (.n (.n (.n (.n .l 0x20 .l) 0x2 .l) 0x4 (.n .l 0x3a100000c200c1e .l))
  0x120000200000020 (.n (.n (.n .l 0x800000000000 .l) 0x3a100000c200c1e .l) 0x54 (.n .l
  0x3a100000c200c1e .l))) 0x10 (.n (.n (.n (.n .l 0x4000000000000 .l) 0x3a100000c200c1e .l) 0x10
  (.n .l 0x200000000000000 .l)) 0x80000000000010 (.n (.n .l 0x3a100000c200c1e .l) 0x20054 (.n .l
  0x3a100000c200c1e .l))))) 0x8000929f6020 (.n (.n (.n (.n (.n (.n .l 0x4000000000000 .l)
  0x800000000000 .l) 0x100000000000000 (.n .l 0x3a100000c200c1e .l)) 0x3a100000c200c1e (.n (.n (.n
  .l 0x20054 .l) 0x3a100000c200c1e .l) 0x200000020 (.n .l 0x3a100000c200c1e .l))) 0x20400000000014
  (.n (.n (.n (.n .l 0x80000000000000000 .l) 0x3a100000c200c1e .l) 0x100000000000000 (.n .l
  0x3a100000c200c1e .l)) 0x3a100000c200c1e (.n (.n .l 0x3a100000c200c1e .l) 0x20054 (.n .l
  0x3a100000c200c1e .l)))) 0x3a100000c200c1e (.n (.n (.n (.n (.n .l 0x80000000000000000 .l)
  0x3a100000c200c1e .l) 0x4 (.n .l 0x3a100000c200c1e .l)) 0x120000200000020 (.n (.n (.n .l
  0x4000000000000 .l) 0x3a100000c200c1e .l) 0x100000000000000 (.n .l 0x3a100000c200c1e .l)))
  0x3a100000c200c1e (.n (.n (.n (.n .l 0x3a100000c200c1e .l) 0x3a100000c200c1e .l)
  0x80000000000000 (.n .l 0x3a100000c200c1e .l)) 0x80000000000010 (.n (.n .l 0x3a100000c200c1e .l)
  0x3a100000c200c1e (.n .l 0x8000929f6020 .l))))))
/-- the nonterminals (by number minus 128) that derive the empty sequence -/
def nullMask : Nat := 0x8000000000000000001
end Pycep
