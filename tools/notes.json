{
 "C62": {
  "note": "grammars with a certificate of GroupLR; start rules that enter the recursion at most once (Solo)"
 }
}