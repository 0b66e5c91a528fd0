{
 "C02": {
  "note": "The clause marked as violated in the statement is a defect of the code: it is proved as the *_violation / negative theorems listed (concrete witnesses or for all inputs); the rest of the statement is proved for all inputs."
 },
 "C03": {
  "note": "The clause marked as violated in the statement is a defect of the code: it is proved as the *_violation / negative theorems listed (concrete witnesses or for all inputs); the rest of the statement is proved for all inputs."
 },
 "C08": {
  "note": "The clause marked as violated in the statement is a defect of the code: it is proved as the *_violation / negative theorems listed (concrete witnesses or for all inputs); the rest of the statement is proved for all inputs."
 },
 "C11": {
  "note": "The clause marked as violated in the statement is a defect of the code: it is proved as the *_violation / negative theorems listed (concrete witnesses or for all inputs); the rest of the statement is proved for all inputs."
 },
 "C12": {
  "note": "The clause marked as violated in the statement is a defect of the code: it is proved as the *_violation / negative theorems listed (concrete witnesses or for all inputs); the rest of the statement is proved for all inputs."
 },
 "C14": {
  "note": "The clause marked as violated in the statement is a defect of the code: it is proved as the *_violation / negative theorems listed (concrete witnesses or for all inputs); the rest of the statement is proved for all inputs."
 },
 "C17": {
  "note": "The clause marked as violated in the statement is a defect of the code: it is proved as the *_violation / negative theorems listed (concrete witnesses or for all inputs); the rest of the statement is proved for all inputs."
 },
 "C18": {
  "note": "The clause marked as violated in the statement is a defect of the code: it is proved as the *_violation / negative theorems listed (concrete witnesses or for all inputs); the rest of the statement is proved for all inputs."
 },
 "C21": {
  "note": "The clause marked as violated in the statement is a defect of the code: it is proved as the *_violation / negative theorems listed (concrete witnesses or for all inputs); the rest of the statement is proved for all inputs."
 },
 "C23": {
  "note": "The clause marked as violated in the statement is a defect of the code: it is proved as the *_violation / negative theorems listed (concrete witnesses or for all inputs); the rest of the statement is proved for all inputs."
 },
 "C26": {
  "note": "The clause marked as violated in the statement is a defect of the code: it is proved as the *_violation / negative theorems listed (concrete witnesses or for all inputs); the rest of the statement is proved for all inputs."
 },
 "C28": {
  "note": "The clause marked as violated in the statement is a defect of the code: it is proved as the *_violation / negative theorems listed (concrete witnesses or for all inputs); the rest of the statement is proved for all inputs."
 },
 "C31": {
  "note": "The clause marked as violated in the statement is a defect of the code: it is proved as the *_violation / negative theorems listed (concrete witnesses or for all inputs); the rest of the statement is proved for all inputs."
 },
 "C32": {
  "note": "The clause marked as violated in the statement is a defect of the code: it is proved as the *_violation / negative theorems listed (concrete witnesses or for all inputs); the rest of the statement is proved for all inputs."
 },
 "C33": {
  "note": "The clause marked as violated in the statement is a defect of the code: it is proved as the *_violation / negative theorems listed (concrete witnesses or for all inputs); the rest of the statement is proved for all inputs."
 },
 "C34": {
  "note": "The clause marked as violated in the statement is a defect of the code: it is proved as the *_violation / negative theorems listed (concrete witnesses or for all inputs); the rest of the statement is proved for all inputs."
 },
 "C35": {
  "note": "The intended statement is false of the code; C35_reversed_tables states for all inputs which values are stored with which layout, the two others give the resulting wrong selections."
 },
 "C36": {
  "note": "The clause marked as violated in the statement is a defect of the code: it is proved as the *_violation / negative theorems listed (concrete witnesses or for all inputs); the rest of the statement is proved for all inputs."
 },
 "C37": {
  "note": "The clause marked as violated in the statement is a defect of the code: it is proved as the *_violation / negative theorems listed (concrete witnesses or for all inputs); the rest of the statement is proved for all inputs."
 },
 "C38": {
  "note": "The clause marked as violated in the statement is a defect of the code: it is proved as the *_violation / negative theorems listed (concrete witnesses or for all inputs); the rest of the statement is proved for all inputs."
 },
 "C39": {
  "note": "The clause marked as violated in the statement is a defect of the code: it is proved as the *_violation / negative theorems listed (concrete witnesses or for all inputs); the rest of the statement is proved for all inputs."
 },
 "C41": {
  "note": "The clause marked as violated in the statement is a defect of the code: it is proved as the *_violation / negative theorems listed (concrete witnesses or for all inputs); the rest of the statement is proved for all inputs."
 },
 "C42": {
  "note": "The clause marked as violated in the statement is a defect of the code: it is proved as the *_violation / negative theorems listed (concrete witnesses or for all inputs); the rest of the statement is proved for all inputs."
 },
 "C44": {
  "note": "The clause marked as violated in the statement is a defect of the code: it is proved as the *_violation / negative theorems listed (concrete witnesses or for all inputs); the rest of the statement is proved for all inputs."
 },
 "C47": {
  "note": "The clause marked as violated in the statement is a defect of the code: it is proved as the *_violation / negative theorems listed (concrete witnesses or for all inputs); the rest of the statement is proved for all inputs."
 },
 "C48": {
  "note": "The clause marked as violated in the statement is a defect of the code: it is proved as the *_violation / negative theorems listed (concrete witnesses or for all inputs); the rest of the statement is proved for all inputs."
 },
 "C49": {
  "note": "The clauses marked as violated in the statement are defects of the code, proved as the *_violation theorems and by the exact equivalences C49_own_iff and C49_aggregated_iff; the exact value of the weightings is proved for all structures."
 },
 "C52": {
  "note": "The clause marked as violated in the statement is a defect of the code: it is proved as the *_violation / negative theorems listed (concrete witnesses or for all inputs); the rest of the statement is proved for all inputs."
 },
 "C54": {
  "note": "The intended statement is false of the code; the theorem proves the violation for every laminate of at least three plies."
 },
 "C55": {
  "note": "The clause marked as violated in the statement is a defect of the code: it is proved as the *_violation / negative theorems listed (concrete witnesses or for all inputs); the rest of the statement is proved for all inputs."
 },
 "C56": {
  "note": "The clause marked as violated in the statement is a defect of the code: it is proved as the *_violation / negative theorems listed (concrete witnesses or for all inputs); the rest of the statement is proved for all inputs."
 },
 "C57": {
  "note": "The clause marked as violated in the statement is a defect of the code: it is proved as the *_violation / negative theorems listed (concrete witnesses or for all inputs); the rest of the statement is proved for all inputs."
 },
 "C58": {
  "note": "The clause marked as violated in the statement is a defect of the code: it is proved as the *_violation / negative theorems listed (concrete witnesses or for all inputs); the rest of the statement is proved for all inputs."
 },
 "C59": {
  "note": "The clause marked as violated in the statement is a defect of the code: it is proved as the *_violation / negative theorems listed (concrete witnesses or for all inputs); the rest of the statement is proved for all inputs."
 },
 "C61": {
  "note": "The clause marked as violated in the statement is a defect of the code: it is proved as the *_violation / negative theorems listed (concrete witnesses or for all inputs); the rest of the statement is proved for all inputs."
 },
 "C65": {
  "note": "The clause marked as violated in the statement is a defect of the code: it is proved as the *_violation / negative theorems listed (concrete witnesses or for all inputs); the rest of the statement is proved for all inputs."
 },
 "C66": {
  "note": "The clause marked as violated in the statement is a defect of the code: it is proved as the *_violation / negative theorems listed (concrete witnesses or for all inputs); the rest of the statement is proved for all inputs."
 },
 "C67": {
  "note": "The clause marked as violated in the statement is a defect of the code: it is proved as the *_violation / negative theorems listed (concrete witnesses or for all inputs); the rest of the statement is proved for all inputs."
 },
 "C68": {
  "note": "The clause marked as violated in the statement is a defect of the code: it is proved as the *_violation / negative theorems listed (concrete witnesses or for all inputs); the rest of the statement is proved for all inputs."
 },
 "C69": {
  "note": "The clause marked as violated in the statement is a defect of the code: it is proved as the *_violation / negative theorems listed (concrete witnesses or for all inputs); the rest of the statement is proved for all inputs."
 },
 "C70": {
  "note": "The clause marked as violated in the statement is a defect of the code: it is proved as the *_violation / negative theorems listed (concrete witnesses or for all inputs); the rest of the statement is proved for all inputs."
 },
 "C71": {
  "note": "The clause marked as violated in the statement is a defect of the code: it is proved as the *_violation / negative theorems listed (concrete witnesses or for all inputs); the rest of the statement is proved for all inputs."
 },
 "C72": {
  "note": "The clause marked as violated in the statement is a defect of the code: it is proved as the *_violation / negative theorems listed (concrete witnesses or for all inputs); the rest of the statement is proved for all inputs."
 },
 "C73": {
  "note": "The clause marked as violated in the statement is a defect of the code: it is proved as the *_violation / negative theorems listed (concrete witnesses or for all inputs); the rest of the statement is proved for all inputs."
 },
 "C74": {
  "note": "The clause marked as violated in the statement is a defect of the code: it is proved as the *_violation / negative theorems listed (concrete witnesses or for all inputs); the rest of the statement is proved for all inputs."
 },
 "C75": {
  "note": "The clause marked as violated in the statement is a defect of the code: it is proved as the *_violation / negative theorems listed (concrete witnesses or for all inputs); the rest of the statement is proved for all inputs."
 },
 "C76": {
  "note": "The clause marked as violated in the statement is a defect of the code: it is proved as the *_violation / negative theorems listed (concrete witnesses or for all inputs); the rest of the statement is proved for all inputs."
 },
 "C77": {
  "note": "The clause marked as violated in the statement is a defect of the code: it is proved as the *_violation / negative theorems listed (concrete witnesses or for all inputs); the rest of the statement is proved for all inputs."
 },
 "C78": {
  "note": "The clause marked as violated in the statement is a defect of the code: it is proved as the *_violation / negative theorems listed (concrete witnesses or for all inputs); the rest of the statement is proved for all inputs."
 },
 "C79": {
  "note": "The clause marked as violated in the statement is a defect of the code: it is proved as the *_violation / negative theorems listed (concrete witnesses or for all inputs); the rest of the statement is proved for all inputs."
 },
 "C80": {
  "note": "The clause marked as violated in the statement is a defect of the code: it is proved as the *_violation / negative theorems listed (concrete witnesses or for all inputs); the rest of the statement is proved for all inputs."
 },
 "C81": {
  "note": "The clause marked as violated in the statement is a defect of the code: it is proved as the *_violation / negative theorems listed (concrete witnesses or for all inputs); the rest of the statement is proved for all inputs."
 },
 "C82": {
  "note": "The clause marked as violated in the statement is a defect of the code: it is proved as the *_violation / negative theorems listed (concrete witnesses or for all inputs); the rest of the statement is proved for all inputs."
 },
 "C83": {
  "note": "The clause marked as violated in the statement is a defect of the code: it is proved as the *_violation / negative theorems listed (concrete witnesses or for all inputs); the rest of the statement is proved for all inputs."
 },
 "C84": {
  "note": "The clause marked as violated in the statement is a defect of the code: it is proved as the *_violation / negative theorems listed (concrete witnesses or for all inputs); the rest of the statement is proved for all inputs."
 },
 "C62": {
  "note": "The clause marked as violated in the statement is a defect of the code: it is proved as the *_violation / negative theorems listed (concrete witnesses or for all inputs); the rest of the statement is proved for all inputs."
 },
 "C63": {
  "note": "The clause marked as violated in the statement is a defect of the code: it is proved as the *_violation / negative theorems listed (concrete witnesses or for all inputs); the rest of the statement is proved for all inputs."
 },
 "C64": {
  "note": "The clause marked as violated in the statement is a defect of the code: it is proved as the *_violation / negative theorems listed (concrete witnesses or for all inputs); the rest of the statement is proved for all inputs."
 },
 "C86": {
  "note": "The clause marked as violated in the statement is a defect of the code: it is proved as the *_violation / negative theorems listed (concrete witnesses or for all inputs); the rest of the statement is proved for all inputs."
 },
 "C87": {
  "note": "The clause marked as violated in the statement is a defect of the code: it is proved as the *_violation / negative theorems listed (concrete witnesses or for all inputs); the rest of the statement is proved for all inputs."
 },
 "C88": {
  "note": "The clause marked as violated in the statement is a defect of the code: it is proved as the *_violation / negative theorems listed (concrete witnesses or for all inputs); the rest of the statement is proved for all inputs."
 },
 "C91": {
  "note": "The clause marked as violated in the statement is a defect of the code: it is proved as the *_violation / negative theorems listed (concrete witnesses or for all inputs); the rest of the statement is proved for all inputs."
 }
}