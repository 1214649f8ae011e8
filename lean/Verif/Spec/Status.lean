import Verif.Basic

/-!
# Reason phrases

The status codes of RFC 3261, section 21, with the phrases of its headings.
-/

namespace Gosip.Spec

/-- Status codes and reason phrases, RFC 3261 sections 21.1 to 21.6. -/
def rfcPhrases : List (Int × Bytes) :=
  [(100, b!"Trying"), (180, b!"Ringing"), (181, b!"Call Is Being Forwarded"), (182, b!"Queued"), (183, b!"Session Progress"),
   (200, b!"OK"),
   (300, b!"Multiple Choices"), (301, b!"Moved Permanently"), (302, b!"Moved Temporarily"), (305, b!"Use Proxy"),
   (380, b!"Alternative Service"),
   (400, b!"Bad Request"), (401, b!"Unauthorized"), (402, b!"Payment Required"), (403, b!"Forbidden"), (404, b!"Not Found"),
   (405, b!"Method Not Allowed"), (406, b!"Not Acceptable"), (407, b!"Proxy Authentication Required"),
   (408, b!"Request Timeout"), (410, b!"Gone"), (413, b!"Request Entity Too Large"), (414, b!"Request-URI Too Long"),
   (415, b!"Unsupported Media Type"), (416, b!"Unsupported URI Scheme"), (420, b!"Bad Extension"),
   (421, b!"Extension Required"), (423, b!"Interval Too Brief"), (480, b!"Temporarily Unavailable"),
   (481, b!"Call/Transaction Does Not Exist"), (482, b!"Loop Detected"), (483, b!"Too Many Hops"),
   (484, b!"Address Incomplete"), (485, b!"Ambiguous"), (486, b!"Busy Here"), (487, b!"Request Terminated"),
   (488, b!"Not Acceptable Here"), (491, b!"Request Pending"), (493, b!"Undecipherable"),
   (500, b!"Server Internal Error"), (501, b!"Not Implemented"), (502, b!"Bad Gateway"), (503, b!"Service Unavailable"),
   (504, b!"Server Time-out"), (505, b!"Version Not Supported"), (513, b!"Message Too Large"),
   (600, b!"Busy Everywhere"), (603, b!"Decline"), (604, b!"Does Not Exist Anywhere"), (606, b!"Not Acceptable")]

/-- Further status codes known to this library, from extensions of SIP. -/
def furtherCodes : List Int :=
  [202, 204, 409, 411, 412, 417, 422, 428, 429, 430, 433, 436, 437, 438, 439, 440, 470, 489, 494, 580, 687]

end Gosip.Spec
