import Verif.Text

/-! # Table of Authorisation Response Codes -/

set_option autoImplicit false

namespace Verif.Iad
open Verif

/-- `emv_auth_response_code_map` (emv_strings.c:5547-5705). -/
def arcTable : List (List Byte × List Byte) :=
  [(txt!"00", txt!"Approved or completed successfully"),
   (txt!"01", txt!"Refer to card issuer"),
   (txt!"02", txt!"Refer to card issuer's special conditions"),
   (txt!"03", txt!"Invalid merchant"),
   (txt!"04", txt!"Pick-up"),
   (txt!"05", txt!"Do not honour"),
   (txt!"06", txt!"Error"),
   (txt!"07", txt!"Pick-up card, special condition"),
   (txt!"08", txt!"Honour with identification"),
   (txt!"09", txt!"Request in progress"),
   (txt!"0A", txt!"No reason to decline"),
   (txt!"0B", txt!"Approved but fees disputed"),
   (txt!"0C", txt!"Approved, unable to process online"),
   (txt!"0D", txt!"Approved, transaction processed offline"),
   (txt!"0E", txt!"Approved, transaction processed offline after referral"),
   (txt!"10", txt!"Approved for partial amount"),
   (txt!"11", txt!"Approved (VIP)"),
   (txt!"12", txt!"Invalid transaction"),
   (txt!"13", txt!"Invalid amount"),
   (txt!"14", txt!"Invalid card/cardholder number"),
   (txt!"15", txt!"No such issuer (invalid IIN)"),
   (txt!"16", txt!"Approved, update track 3"),
   (txt!"17", txt!"Customer cancellation"),
   (txt!"18", txt!"Customer dispute"),
   (txt!"19", txt!"Re-enter transaction"),
   (txt!"1A", txt!"Additional consumer authentication required"),
   (txt!"1B", txt!"Cashback not allowed"),
   (txt!"1C", txt!"Cashback amount exceeded"),
   (txt!"1D", txt!"Surcharge amount not permitted for card product"),
   (txt!"1E", txt!"Surcharge not permitted by selected network"),
   (txt!"1F", txt!"Exceeds pre-authorized amount"),
   (txt!"1G", txt!"Currency unacceptable to card issuer"),
   (txt!"1H", txt!"Authorization lifecycle unacceptable"),
   (txt!"1I", txt!"Authorization lifecycle has expired"),
   (txt!"1J", txt!"Message sequence number error"),
   (txt!"1K", txt!"Payment date invalid"),
   (txt!"1L", txt!"Stop payment order - Specific pre-authorized payment"),
   (txt!"1M", txt!"Stop payment order - All pre-authorized payments for merchant"),
   (txt!"1N", txt!"Stop payment order - Account"),
   (txt!"1O", txt!"Recurring data error"),
   (txt!"1P", txt!"Scheduled transactions exist"),
   (txt!"1W", txt!"Cheque already posted"),
   (txt!"1X", txt!"Declined, unable to process offline"),
   (txt!"1Y", txt!"Declined, transaction processed offline"),
   (txt!"1Z", txt!"Declined, transaction processed offline after referral"),
   (txt!"20", txt!"Invalid response"),
   (txt!"21", txt!"No action taken"),
   (txt!"22", txt!"Suspected malfunction"),
   (txt!"23", txt!"Unacceptable transaction fee"),
   (txt!"24", txt!"File update not supported by receiver"),
   (txt!"25", txt!"Unable to locate record on file"),
   (txt!"26", txt!"Duplicate file update record, old record replaced"),
   (txt!"27", txt!"File update field edit error"),
   (txt!"28", txt!"File update file locked out"),
   (txt!"29", txt!"File update not successful"),
   (txt!"2A", txt!"Duplicate, new record rejected"),
   (txt!"2B", txt!"Unknown file"),
   (txt!"2C", txt!"Invalid security code"),
   (txt!"2D", txt!"Database error"),
   (txt!"2E", txt!"Update not allowed"),
   (txt!"2F", txt!"Not authorized and fees disputed"),
   (txt!"30", txt!"Format error"),
   (txt!"31", txt!"Acquirer bank not supported"),
   (txt!"32", txt!"Completed partially"),
   (txt!"33", txt!"Expired card"),
   (txt!"34", txt!"Suspected fraud"),
   (txt!"35", txt!"Card acceptor contact acquirer"),
   (txt!"36", txt!"Restricted card"),
   (txt!"37", txt!"Card acceptor call acquirer security"),
   (txt!"38", txt!"Allowable PIN tries exceeded"),
   (txt!"39", txt!"No credit account"),
   (txt!"3A", txt!"Suspected counterfeit card, pick up card"),
   (txt!"3B", txt!"Daily withdrawal uses exceeded"),
   (txt!"3C", txt!"Daily withdrawal amount exceeded"),
   (txt!"40", txt!"Requested function not supported"),
   (txt!"41", txt!"Lost card, pick-up"),
   (txt!"42", txt!"No universal account"),
   (txt!"43", txt!"Stolen card, pick-up"),
   (txt!"44", txt!"No investment account"),
   (txt!"45", txt!"No account of type requested"),
   (txt!"46", txt!"Closed account, or restricted for closing"),
   (txt!"47", txt!"From account bad status"),
   (txt!"48", txt!"To account bad status"),
   (txt!"49", txt!"Bad debt"),
   (txt!"4A", txt!"Card not effective"),
   (txt!"4B", txt!"Closed savings account, or restricted for closing"),
   (txt!"4C", txt!"Closed credit account or restricted for closing"),
   (txt!"4D", txt!"Closed credit facility cheque account or restricted for closing"),
   (txt!"4E", txt!"Closed cheque account or restricted for closing"),
   (txt!"51", txt!"Not sufficient funds"),
   (txt!"52", txt!"No chequing account"),
   (txt!"53", txt!"No savings account"),
   (txt!"54", txt!"Expired card"),
   (txt!"55", txt!"Incorrect personal identification number"),
   (txt!"56", txt!"No card record"),
   (txt!"57", txt!"Transaction not permitted to cardholder"),
   (txt!"58", txt!"Transaction not permitted to terminal"),
   (txt!"59", txt!"Suspected fraud"),
   (txt!"5A", txt!"Suspected counterfeit card"),
   (txt!"5B", txt!"Transaction does not fulfill Anti-Money Laundering requirements"),
   (txt!"5C", txt!"Transaction not supported by the card issuer"),
   (txt!"60", txt!"Card acceptor contact acquirer"),
   (txt!"61", txt!"Exceeds withdrawal amount limit"),
   (txt!"62", txt!"Restricted card"),
   (txt!"63", txt!"Security violation"),
   (txt!"64", txt!"Original amount incorrect"),
   (txt!"65", txt!"Exceeds withdrawal frequency limit"),
   (txt!"66", txt!"Card acceptor call acquirer's security department"),
   (txt!"67", txt!"Hard capture (requires that card be picked up at ATM)"),
   (txt!"68", txt!"Response received too late"),
   (txt!"6P", txt!"Verification data failed"),
   (txt!"6Q", txt!"No communication keys available for use"),
   (txt!"6R", txt!"MAC key sync error"),
   (txt!"6S", txt!"MAC incorrect"),
   (txt!"6T", txt!"Security software/hardware error - try again"),
   (txt!"6U", txt!"Security software/hardware error - do not retry"),
   (txt!"6V", txt!"Encryption key sync error"),
   (txt!"6W", txt!"Key verification failed. Key check value does not match"),
   (txt!"6X", txt!"Key sync error"),
   (txt!"6Y", txt!"Missing required data to verify/process PIN"),
   (txt!"6Z", txt!"Invalid PIN block"),
   (txt!"70", txt!"PIN data required"),
   (txt!"71", txt!"New PIN invalid"),
   (txt!"72", txt!"PIN change required"),
   (txt!"73", txt!"PIN is not allowed for transaction"),
   (txt!"74", txt!"PIN length error"),
   (txt!"75", txt!"Allowable number of PIN tries exceeded"),
   (txt!"8A", txt!"Reconciled, in balance"),
   (txt!"8B", txt!"Amount not reconciled, totals provided"),
   (txt!"8C", txt!"Totals not available"),
   (txt!"8D", txt!"Not reconciled, totals provided"),
   (txt!"8E", txt!"Ineligible to receive financial position information"),
   (txt!"8F", txt!"Reconciliation cutover or checkpoint error"),
   (txt!"8G", txt!"Advice acknowledged, no financial liability accepted"),
   (txt!"8H", txt!"Advice acknowledged, financial liability accepted"),
   (txt!"8I", txt!"Message number out of sequence"),
   (txt!"8W", txt!"Perform Stand-In Processing (STIP)"),
   (txt!"8X", txt!"Currently unable to perform request; try later"),
   (txt!"8Y", txt!"Card issuer signed off"),
   (txt!"8Z", txt!"Card issuer timed out"),
   (txt!"90", txt!"Cutoff is in process (switch ending a day's business and starting the next. Transaction can be sent again in a few minutes)"),
   (txt!"91", txt!"Issuer or switch is unavailable or inoperative"),
   (txt!"92", txt!"Financial institution or intermediate network facility cannot be found for routing"),
   (txt!"93", txt!"Transaction cannot be completed. Violation of law"),
   (txt!"94", txt!"Duplicate transmission"),
   (txt!"95", txt!"Reconcile error"),
   (txt!"96", txt!"System malfunction"),
   (txt!"9A", txt!"Violation of business arrangement"),
   (txt!"9B", txt!"No matching original transaction"),
   (txt!"9C", txt!"Original transaction was declined"),
   (txt!"9D", txt!"Bank not found"),
   (txt!"9E", txt!"Bank not effective"),
   (txt!"9F", txt!"Information not on file")]

end Verif.Iad
