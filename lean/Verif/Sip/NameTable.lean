import Verif.Basic

/-!
# The header name trie of the message machine

Generated by `tools/names.py`; checked in `Verif.Sip.Names`.
-/

namespace Gosip.Sip.MsgM

/-- The beginnings of known header names, in lower case, that lead to state `k`; `[]` outside the trie. -/
def pre (k : Nat) : List Bytes :=
  bif Nat.blt k 543 then
    bif Nat.blt k 406 then
      bif Nat.blt k 337 then
        bif Nat.blt k 310 then
          bif Nat.blt k 297 then
            bif Nat.blt k 290 then
              bif Nat.blt k 283 then
                bif Nat.blt k 281 then
                  []
                else
                  bif Nat.blt k 282 then
                    [b!""]
                  else
                    [b!"a"]
              else
                bif Nat.blt k 288 then
                  []
                else
                  bif Nat.blt k 289 then
                    [b!"ac"]
                  else
                    [b!"acc"]
            else
              bif Nat.blt k 293 then
                bif Nat.blt k 291 then
                  [b!"acce"]
                else
                  bif Nat.blt k 292 then
                    [b!"accep"]
                  else
                    [b!"accept"]
              else
                bif Nat.blt k 295 then
                  bif Nat.blt k 294 then
                    [b!"accept-"]
                  else
                    [b!"accept-c"]
                else
                  bif Nat.blt k 296 then
                    [b!"accept-co"]
                  else
                    [b!"accept-con"]
          else
            bif Nat.blt k 303 then
              bif Nat.blt k 300 then
                bif Nat.blt k 298 then
                  [b!"accept-cont"]
                else
                  bif Nat.blt k 299 then
                    [b!"accept-conta"]
                  else
                    [b!"accept-contac"]
              else
                bif Nat.blt k 301 then
                  [b!"accept-contact"]
                else
                  bif Nat.blt k 302 then
                    [b!"accept-e"]
                  else
                    [b!"accept-en"]
            else
              bif Nat.blt k 306 then
                bif Nat.blt k 304 then
                  [b!"accept-enc"]
                else
                  bif Nat.blt k 305 then
                    [b!"accept-enco"]
                  else
                    [b!"accept-encod"]
              else
                bif Nat.blt k 308 then
                  bif Nat.blt k 307 then
                    [b!"accept-encodi"]
                  else
                    [b!"accept-encodin"]
                else
                  bif Nat.blt k 309 then
                    [b!"accept-encoding"]
                  else
                    [b!"accept-l"]
        else
          bif Nat.blt k 323 then
            bif Nat.blt k 316 then
              bif Nat.blt k 313 then
                bif Nat.blt k 311 then
                  [b!"accept-la"]
                else
                  bif Nat.blt k 312 then
                    [b!"accept-lan"]
                  else
                    [b!"accept-lang"]
              else
                bif Nat.blt k 314 then
                  [b!"accept-langu"]
                else
                  bif Nat.blt k 315 then
                    [b!"accept-langua"]
                  else
                    [b!"accept-languag"]
            else
              bif Nat.blt k 319 then
                bif Nat.blt k 317 then
                  [b!"accept-language"]
                else
                  bif Nat.blt k 318 then
                    [b!"al"]
                  else
                    [b!"ale"]
              else
                bif Nat.blt k 321 then
                  bif Nat.blt k 320 then
                    [b!"aler"]
                  else
                    [b!"alert"]
                else
                  bif Nat.blt k 322 then
                    [b!"alert-"]
                  else
                    [b!"alert-i"]
          else
            bif Nat.blt k 330 then
              bif Nat.blt k 326 then
                bif Nat.blt k 324 then
                  [b!"alert-in"]
                else
                  bif Nat.blt k 325 then
                    [b!"alert-inf"]
                  else
                    [b!"alert-info"]
              else
                bif Nat.blt k 328 then
                  bif Nat.blt k 327 then
                    [b!"all"]
                  else
                    [b!"allo"]
                else
                  bif Nat.blt k 329 then
                    [b!"allow"]
                  else
                    [b!"allow-"]
            else
              bif Nat.blt k 333 then
                bif Nat.blt k 331 then
                  [b!"allow-e"]
                else
                  bif Nat.blt k 332 then
                    [b!"allow-ev"]
                  else
                    [b!"allow-eve"]
              else
                bif Nat.blt k 335 then
                  bif Nat.blt k 334 then
                    [b!"allow-even"]
                  else
                    [b!"allow-event"]
                else
                  bif Nat.blt k 336 then
                    [b!"allow-events"]
                  else
                    [b!"au"]
      else
        bif Nat.blt k 363 then
          bif Nat.blt k 350 then
            bif Nat.blt k 343 then
              bif Nat.blt k 340 then
                bif Nat.blt k 338 then
                  [b!"aut"]
                else
                  bif Nat.blt k 339 then
                    [b!"auth"]
                  else
                    [b!"authe"]
              else
                bif Nat.blt k 341 then
                  [b!"authen"]
                else
                  bif Nat.blt k 342 then
                    [b!"authent"]
                  else
                    [b!"authenti"]
            else
              bif Nat.blt k 346 then
                bif Nat.blt k 344 then
                  [b!"authentic"]
                else
                  bif Nat.blt k 345 then
                    [b!"authentica"]
                  else
                    [b!"authenticat"]
              else
                bif Nat.blt k 348 then
                  bif Nat.blt k 347 then
                    [b!"authenticati"]
                  else
                    [b!"authenticatio"]
                else
                  bif Nat.blt k 349 then
                    [b!"authentication"]
                  else
                    [b!"authentication-"]
          else
            bif Nat.blt k 356 then
              bif Nat.blt k 353 then
                bif Nat.blt k 351 then
                  [b!"authentication-i"]
                else
                  bif Nat.blt k 352 then
                    [b!"authentication-in"]
                  else
                    [b!"authentication-inf"]
              else
                bif Nat.blt k 354 then
                  [b!"authentication-info"]
                else
                  bif Nat.blt k 355 then
                    [b!"autho"]
                  else
                    [b!"author"]
            else
              bif Nat.blt k 359 then
                bif Nat.blt k 357 then
                  [b!"authori"]
                else
                  bif Nat.blt k 358 then
                    [b!"authoriz"]
                  else
                    [b!"authoriza"]
              else
                bif Nat.blt k 361 then
                  bif Nat.blt k 360 then
                    [b!"authorizat"]
                  else
                    [b!"authorizati"]
                else
                  bif Nat.blt k 362 then
                    [b!"authorizatio"]
                  else
                    [b!"authorization"]
        else
          bif Nat.blt k 388 then
            bif Nat.blt k 373 then
              bif Nat.blt k 370 then
                bif Nat.blt k 364 then
                  [b!"b", b!"referred-by"]
                else
                  bif Nat.blt k 365 then
                    [b!"c"]
                  else
                    []
              else
                bif Nat.blt k 371 then
                  [b!"ca"]
                else
                  bif Nat.blt k 372 then
                    [b!"cal"]
                  else
                    [b!"call"]
            else
              bif Nat.blt k 376 then
                bif Nat.blt k 374 then
                  [b!"call-"]
                else
                  bif Nat.blt k 375 then
                    [b!"call-i"]
                  else
                    [b!"call-id"]
              else
                bif Nat.blt k 386 then
                  bif Nat.blt k 385 then
                    []
                  else
                    [b!"call-in"]
                else
                  bif Nat.blt k 387 then
                    [b!"call-inf"]
                  else
                    [b!"call-info"]
          else
            bif Nat.blt k 399 then
              bif Nat.blt k 391 then
                bif Nat.blt k 389 then
                  [b!"co"]
                else
                  bif Nat.blt k 390 then
                    [b!"con"]
                  else
                    [b!"cont"]
              else
                bif Nat.blt k 393 then
                  bif Nat.blt k 392 then
                    [b!"conta"]
                  else
                    [b!"contac"]
                else
                  bif Nat.blt k 394 then
                    [b!"contact"]
                  else
                    []
            else
              bif Nat.blt k 402 then
                bif Nat.blt k 400 then
                  [b!"conte"]
                else
                  bif Nat.blt k 401 then
                    [b!"conten"]
                  else
                    [b!"content"]
              else
                bif Nat.blt k 404 then
                  bif Nat.blt k 403 then
                    [b!"content-"]
                  else
                    [b!"content-d"]
                else
                  bif Nat.blt k 405 then
                    [b!"content-di"]
                  else
                    [b!"content-dis"]
    else
      bif Nat.blt k 474 then
        bif Nat.blt k 432 then
          bif Nat.blt k 419 then
            bif Nat.blt k 412 then
              bif Nat.blt k 409 then
                bif Nat.blt k 407 then
                  [b!"content-disp"]
                else
                  bif Nat.blt k 408 then
                    [b!"content-dispo"]
                  else
                    [b!"content-dispos"]
              else
                bif Nat.blt k 410 then
                  [b!"content-disposi"]
                else
                  bif Nat.blt k 411 then
                    [b!"content-disposit"]
                  else
                    [b!"content-dispositi"]
            else
              bif Nat.blt k 415 then
                bif Nat.blt k 413 then
                  [b!"content-dispositio"]
                else
                  bif Nat.blt k 414 then
                    [b!"content-disposition"]
                  else
                    [b!"content-e"]
              else
                bif Nat.blt k 417 then
                  bif Nat.blt k 416 then
                    [b!"content-en"]
                  else
                    [b!"content-enc"]
                else
                  bif Nat.blt k 418 then
                    [b!"content-enco"]
                  else
                    [b!"content-encod"]
          else
            bif Nat.blt k 425 then
              bif Nat.blt k 422 then
                bif Nat.blt k 420 then
                  [b!"content-encodi"]
                else
                  bif Nat.blt k 421 then
                    [b!"content-encodin"]
                  else
                    [b!"content-encoding"]
              else
                bif Nat.blt k 423 then
                  [b!"content-l"]
                else
                  bif Nat.blt k 424 then
                    [b!"content-la"]
                  else
                    [b!"content-lan"]
            else
              bif Nat.blt k 428 then
                bif Nat.blt k 426 then
                  [b!"content-lang"]
                else
                  bif Nat.blt k 427 then
                    [b!"content-langu"]
                  else
                    [b!"content-langua"]
              else
                bif Nat.blt k 430 then
                  bif Nat.blt k 429 then
                    [b!"content-languag"]
                  else
                    [b!"content-language"]
                else
                  bif Nat.blt k 431 then
                    [b!"content-le"]
                  else
                    [b!"content-len"]
        else
          bif Nat.blt k 460 then
            bif Nat.blt k 443 then
              bif Nat.blt k 435 then
                bif Nat.blt k 433 then
                  [b!"content-leng"]
                else
                  bif Nat.blt k 434 then
                    [b!"content-lengt"]
                  else
                    [b!"content-length"]
              else
                bif Nat.blt k 441 then
                  []
                else
                  bif Nat.blt k 442 then
                    [b!"content-t"]
                  else
                    [b!"content-ty"]
            else
              bif Nat.blt k 446 then
                bif Nat.blt k 444 then
                  [b!"content-typ"]
                else
                  bif Nat.blt k 445 then
                    [b!"content-type"]
                  else
                    [b!"cs"]
              else
                bif Nat.blt k 448 then
                  bif Nat.blt k 447 then
                    [b!"cse"]
                  else
                    [b!"cseq"]
                else
                  bif Nat.blt k 459 then
                    []
                  else
                    [b!"d"]
          else
            bif Nat.blt k 467 then
              bif Nat.blt k 463 then
                bif Nat.blt k 461 then
                  [b!"da"]
                else
                  bif Nat.blt k 462 then
                    [b!"dat"]
                  else
                    [b!"date"]
              else
                bif Nat.blt k 465 then
                  bif Nat.blt k 464 then
                    [b!"e"]
                  else
                    [b!"er"]
                else
                  bif Nat.blt k 466 then
                    [b!"err"]
                  else
                    [b!"erro"]
            else
              bif Nat.blt k 470 then
                bif Nat.blt k 468 then
                  [b!"error"]
                else
                  bif Nat.blt k 469 then
                    [b!"error-"]
                  else
                    [b!"error-i"]
              else
                bif Nat.blt k 472 then
                  bif Nat.blt k 471 then
                    [b!"error-in"]
                  else
                    [b!"error-inf"]
                else
                  bif Nat.blt k 473 then
                    [b!"error-info"]
                  else
                    [b!"ev"]
      else
        bif Nat.blt k 506 then
          bif Nat.blt k 492 then
            bif Nat.blt k 480 then
              bif Nat.blt k 477 then
                bif Nat.blt k 475 then
                  [b!"eve"]
                else
                  bif Nat.blt k 476 then
                    [b!"even"]
                  else
                    [b!"event"]
              else
                bif Nat.blt k 478 then
                  [b!"ex"]
                else
                  bif Nat.blt k 479 then
                    [b!"exp"]
                  else
                    [b!"expi"]
            else
              bif Nat.blt k 483 then
                bif Nat.blt k 481 then
                  [b!"expir"]
                else
                  bif Nat.blt k 482 then
                    [b!"expire"]
                  else
                    [b!"expires"]
              else
                bif Nat.blt k 490 then
                  bif Nat.blt k 489 then
                    []
                  else
                    [b!"f"]
                else
                  bif Nat.blt k 491 then
                    [b!"fr"]
                  else
                    [b!"fro"]
          else
            bif Nat.blt k 499 then
              bif Nat.blt k 495 then
                bif Nat.blt k 493 then
                  [b!"from"]
                else
                  bif Nat.blt k 494 then
                    [b!"i"]
                  else
                    [b!"in"]
              else
                bif Nat.blt k 497 then
                  bif Nat.blt k 496 then
                    [b!"in-"]
                  else
                    [b!"in-r"]
                else
                  bif Nat.blt k 498 then
                    [b!"in-re"]
                  else
                    [b!"in-rep"]
            else
              bif Nat.blt k 502 then
                bif Nat.blt k 500 then
                  [b!"in-repl"]
                else
                  bif Nat.blt k 501 then
                    [b!"in-reply"]
                  else
                    [b!"in-reply-"]
              else
                bif Nat.blt k 504 then
                  bif Nat.blt k 503 then
                    [b!"in-reply-t"]
                  else
                    [b!"in-reply-to"]
                else
                  bif Nat.blt k 505 then
                    [b!"k", b!"supported"]
                  else
                    [b!"l"]
        else
          bif Nat.blt k 524 then
            bif Nat.blt k 517 then
              bif Nat.blt k 514 then
                bif Nat.blt k 512 then
                  []
                else
                  bif Nat.blt k 513 then
                    [b!"m"]
                  else
                    [b!"ma"]
              else
                bif Nat.blt k 515 then
                  [b!"max"]
                else
                  bif Nat.blt k 516 then
                    [b!"max-"]
                  else
                    [b!"max-f"]
            else
              bif Nat.blt k 520 then
                bif Nat.blt k 518 then
                  [b!"max-fo"]
                else
                  bif Nat.blt k 519 then
                    [b!"max-for"]
                  else
                    [b!"max-forw"]
              else
                bif Nat.blt k 522 then
                  bif Nat.blt k 521 then
                    [b!"max-forwa"]
                  else
                    [b!"max-forwar"]
                else
                  bif Nat.blt k 523 then
                    [b!"max-forward"]
                  else
                    [b!"max-forwards"]
          else
            bif Nat.blt k 536 then
              bif Nat.blt k 532 then
                bif Nat.blt k 530 then
                  []
                else
                  bif Nat.blt k 531 then
                    [b!"mi"]
                  else
                    [b!"mim"]
              else
                bif Nat.blt k 534 then
                  bif Nat.blt k 533 then
                    [b!"mime"]
                  else
                    [b!"mime-"]
                else
                  bif Nat.blt k 535 then
                    [b!"mime-v"]
                  else
                    [b!"mime-ve"]
            else
              bif Nat.blt k 539 then
                bif Nat.blt k 537 then
                  [b!"mime-ver"]
                else
                  bif Nat.blt k 538 then
                    [b!"mime-vers"]
                  else
                    [b!"mime-versi"]
              else
                bif Nat.blt k 541 then
                  bif Nat.blt k 540 then
                    [b!"mime-versio"]
                  else
                    [b!"mime-version"]
                else
                  bif Nat.blt k 542 then
                    [b!"min"]
                  else
                    [b!"min-"]
  else
    bif Nat.blt k 654 then
      bif Nat.blt k 601 then
        bif Nat.blt k 574 then
          bif Nat.blt k 561 then
            bif Nat.blt k 549 then
              bif Nat.blt k 546 then
                bif Nat.blt k 544 then
                  [b!"min-e"]
                else
                  bif Nat.blt k 545 then
                    [b!"min-ex"]
                  else
                    [b!"min-exp"]
              else
                bif Nat.blt k 547 then
                  [b!"min-expi"]
                else
                  bif Nat.blt k 548 then
                    [b!"min-expir"]
                  else
                    [b!"min-expire"]
            else
              bif Nat.blt k 557 then
                bif Nat.blt k 550 then
                  [b!"min-expires"]
                else
                  bif Nat.blt k 556 then
                    []
                  else
                    [b!"o"]
              else
                bif Nat.blt k 559 then
                  bif Nat.blt k 558 then
                    [b!"or"]
                  else
                    [b!"org"]
                else
                  bif Nat.blt k 560 then
                    [b!"orga"]
                  else
                    [b!"organ"]
          else
            bif Nat.blt k 567 then
              bif Nat.blt k 564 then
                bif Nat.blt k 562 then
                  [b!"organi"]
                else
                  bif Nat.blt k 563 then
                    [b!"organiz"]
                  else
                    [b!"organiza"]
              else
                bif Nat.blt k 565 then
                  [b!"organizat"]
                else
                  bif Nat.blt k 566 then
                    [b!"organizati"]
                  else
                    [b!"organizatio"]
            else
              bif Nat.blt k 570 then
                bif Nat.blt k 568 then
                  [b!"organization"]
                else
                  bif Nat.blt k 569 then
                    [b!"p"]
                  else
                    [b!"p-"]
              else
                bif Nat.blt k 572 then
                  bif Nat.blt k 571 then
                    [b!"p-a"]
                  else
                    [b!"p-as"]
                else
                  bif Nat.blt k 573 then
                    [b!"p-ass"]
                  else
                    [b!"p-asse"]
        else
          bif Nat.blt k 587 then
            bif Nat.blt k 580 then
              bif Nat.blt k 577 then
                bif Nat.blt k 575 then
                  [b!"p-asser"]
                else
                  bif Nat.blt k 576 then
                    [b!"p-assert"]
                  else
                    [b!"p-asserte"]
              else
                bif Nat.blt k 578 then
                  [b!"p-asserted"]
                else
                  bif Nat.blt k 579 then
                    [b!"p-asserted-"]
                  else
                    [b!"p-asserted-i"]
            else
              bif Nat.blt k 583 then
                bif Nat.blt k 581 then
                  [b!"p-asserted-id"]
                else
                  bif Nat.blt k 582 then
                    [b!"p-asserted-ide"]
                  else
                    [b!"p-asserted-iden"]
              else
                bif Nat.blt k 585 then
                  bif Nat.blt k 584 then
                    [b!"p-asserted-ident"]
                  else
                    [b!"p-asserted-identi"]
                else
                  bif Nat.blt k 586 then
                    [b!"p-asserted-identit"]
                  else
                    [b!"p-asserted-identity"]
          else
            bif Nat.blt k 594 then
              bif Nat.blt k 590 then
                bif Nat.blt k 588 then
                  [b!"pr"]
                else
                  bif Nat.blt k 589 then
                    [b!"pri"]
                  else
                    [b!"prio"]
              else
                bif Nat.blt k 592 then
                  bif Nat.blt k 591 then
                    [b!"prior"]
                  else
                    [b!"priori"]
                else
                  bif Nat.blt k 593 then
                    [b!"priorit"]
                  else
                    [b!"priority"]
            else
              bif Nat.blt k 597 then
                bif Nat.blt k 595 then
                  [b!"pro"]
                else
                  bif Nat.blt k 596 then
                    [b!"prox"]
                  else
                    [b!"proxy"]
              else
                bif Nat.blt k 599 then
                  bif Nat.blt k 598 then
                    [b!"proxy-"]
                  else
                    [b!"proxy-a"]
                else
                  bif Nat.blt k 600 then
                    [b!"proxy-au"]
                  else
                    [b!"proxy-aut"]
      else
        bif Nat.blt k 627 then
          bif Nat.blt k 614 then
            bif Nat.blt k 607 then
              bif Nat.blt k 604 then
                bif Nat.blt k 602 then
                  [b!"proxy-auth"]
                else
                  bif Nat.blt k 603 then
                    [b!"proxy-authe"]
                  else
                    [b!"proxy-authen"]
              else
                bif Nat.blt k 605 then
                  [b!"proxy-authent"]
                else
                  bif Nat.blt k 606 then
                    [b!"proxy-authenti"]
                  else
                    [b!"proxy-authentic"]
            else
              bif Nat.blt k 610 then
                bif Nat.blt k 608 then
                  [b!"proxy-authentica"]
                else
                  bif Nat.blt k 609 then
                    [b!"proxy-authenticat"]
                  else
                    [b!"proxy-authenticate"]
              else
                bif Nat.blt k 612 then
                  bif Nat.blt k 611 then
                    [b!"proxy-autho"]
                  else
                    [b!"proxy-author"]
                else
                  bif Nat.blt k 613 then
                    [b!"proxy-authori"]
                  else
                    [b!"proxy-authoriz"]
          else
            bif Nat.blt k 620 then
              bif Nat.blt k 617 then
                bif Nat.blt k 615 then
                  [b!"proxy-authoriza"]
                else
                  bif Nat.blt k 616 then
                    [b!"proxy-authorizat"]
                  else
                    [b!"proxy-authorizati"]
              else
                bif Nat.blt k 618 then
                  [b!"proxy-authorizatio"]
                else
                  bif Nat.blt k 619 then
                    [b!"proxy-authorization"]
                  else
                    [b!"proxy-r"]
            else
              bif Nat.blt k 623 then
                bif Nat.blt k 621 then
                  [b!"proxy-re"]
                else
                  bif Nat.blt k 622 then
                    [b!"proxy-req"]
                  else
                    [b!"proxy-requ"]
              else
                bif Nat.blt k 625 then
                  bif Nat.blt k 624 then
                    [b!"proxy-requi"]
                  else
                    [b!"proxy-requir"]
                else
                  bif Nat.blt k 626 then
                    [b!"proxy-require"]
                  else
                    [b!"r"]
        else
          bif Nat.blt k 640 then
            bif Nat.blt k 633 then
              bif Nat.blt k 630 then
                bif Nat.blt k 628 then
                  [b!"re"]
                else
                  bif Nat.blt k 629 then
                    [b!"rec"]
                  else
                    [b!"reco"]
              else
                bif Nat.blt k 631 then
                  [b!"recor"]
                else
                  bif Nat.blt k 632 then
                    [b!"record"]
                  else
                    [b!"record-"]
            else
              bif Nat.blt k 636 then
                bif Nat.blt k 634 then
                  [b!"record-r"]
                else
                  bif Nat.blt k 635 then
                    [b!"record-ro"]
                  else
                    [b!"record-rou"]
              else
                bif Nat.blt k 638 then
                  bif Nat.blt k 637 then
                    [b!"record-rout"]
                  else
                    [b!"record-route"]
                else
                  bif Nat.blt k 639 then
                    [b!"ref"]
                  else
                    [b!"refe"]
          else
            bif Nat.blt k 647 then
              bif Nat.blt k 643 then
                bif Nat.blt k 641 then
                  [b!"refer"]
                else
                  bif Nat.blt k 642 then
                    [b!"refer-"]
                  else
                    [b!"refer-t"]
              else
                bif Nat.blt k 645 then
                  bif Nat.blt k 644 then
                    [b!"refer-to"]
                  else
                    [b!"referr"]
                else
                  bif Nat.blt k 646 then
                    [b!"referre"]
                  else
                    [b!"referred"]
            else
              bif Nat.blt k 650 then
                bif Nat.blt k 648 then
                  [b!"referred-"]
                else
                  bif Nat.blt k 649 then
                    [b!"referred-b"]
                  else
                    [b!"rem"]
              else
                bif Nat.blt k 652 then
                  bif Nat.blt k 651 then
                    [b!"remo"]
                  else
                    [b!"remot"]
                else
                  bif Nat.blt k 653 then
                    [b!"remote"]
                  else
                    [b!"remote-"]
    else
      bif Nat.blt k 707 then
        bif Nat.blt k 680 then
          bif Nat.blt k 667 then
            bif Nat.blt k 660 then
              bif Nat.blt k 657 then
                bif Nat.blt k 655 then
                  [b!"remote-p"]
                else
                  bif Nat.blt k 656 then
                    [b!"remote-pa"]
                  else
                    [b!"remote-par"]
              else
                bif Nat.blt k 658 then
                  [b!"remote-part"]
                else
                  bif Nat.blt k 659 then
                    [b!"remote-party"]
                  else
                    [b!"remote-party-"]
            else
              bif Nat.blt k 663 then
                bif Nat.blt k 661 then
                  [b!"remote-party-i"]
                else
                  bif Nat.blt k 662 then
                    [b!"remote-party-id"]
                  else
                    [b!"rep"]
              else
                bif Nat.blt k 665 then
                  bif Nat.blt k 664 then
                    [b!"repl"]
                  else
                    [b!"reply"]
                else
                  bif Nat.blt k 666 then
                    [b!"reply-"]
                  else
                    [b!"reply-t"]
          else
            bif Nat.blt k 673 then
              bif Nat.blt k 670 then
                bif Nat.blt k 668 then
                  [b!"reply-to"]
                else
                  bif Nat.blt k 669 then
                    [b!"req"]
                  else
                    [b!"requ"]
              else
                bif Nat.blt k 671 then
                  [b!"requi"]
                else
                  bif Nat.blt k 672 then
                    [b!"requir"]
                  else
                    [b!"require"]
            else
              bif Nat.blt k 676 then
                bif Nat.blt k 674 then
                  [b!"ret"]
                else
                  bif Nat.blt k 675 then
                    [b!"retr"]
                  else
                    [b!"retry"]
              else
                bif Nat.blt k 678 then
                  bif Nat.blt k 677 then
                    [b!"retry-"]
                  else
                    [b!"retry-a"]
                else
                  bif Nat.blt k 679 then
                    [b!"retry-af"]
                  else
                    [b!"retry-aft"]
        else
          bif Nat.blt k 693 then
            bif Nat.blt k 686 then
              bif Nat.blt k 683 then
                bif Nat.blt k 681 then
                  [b!"retry-afte"]
                else
                  bif Nat.blt k 682 then
                    [b!"retry-after"]
                  else
                    [b!"ro"]
              else
                bif Nat.blt k 684 then
                  [b!"rou"]
                else
                  bif Nat.blt k 685 then
                    [b!"rout"]
                  else
                    [b!"route"]
            else
              bif Nat.blt k 689 then
                bif Nat.blt k 687 then
                  [b!"s"]
                else
                  bif Nat.blt k 688 then
                    [b!"se"]
                  else
                    [b!"ser"]
              else
                bif Nat.blt k 691 then
                  bif Nat.blt k 690 then
                    [b!"serv"]
                  else
                    [b!"serve"]
                else
                  bif Nat.blt k 692 then
                    [b!"server"]
                  else
                    [b!"su"]
          else
            bif Nat.blt k 700 then
              bif Nat.blt k 696 then
                bif Nat.blt k 694 then
                  [b!"sub"]
                else
                  bif Nat.blt k 695 then
                    [b!"subj"]
                  else
                    [b!"subje"]
              else
                bif Nat.blt k 698 then
                  bif Nat.blt k 697 then
                    [b!"subjec"]
                  else
                    [b!"subject"]
                else
                  bif Nat.blt k 699 then
                    [b!"sup"]
                  else
                    [b!"supp"]
            else
              bif Nat.blt k 703 then
                bif Nat.blt k 701 then
                  [b!"suppo"]
                else
                  bif Nat.blt k 702 then
                    [b!"suppor"]
                  else
                    [b!"support"]
              else
                bif Nat.blt k 705 then
                  bif Nat.blt k 704 then
                    [b!"supporte"]
                  else
                    [b!"t"]
                else
                  bif Nat.blt k 706 then
                    [b!"ti"]
                  else
                    [b!"tim"]
      else
        bif Nat.blt k 734 then
          bif Nat.blt k 720 then
            bif Nat.blt k 713 then
              bif Nat.blt k 710 then
                bif Nat.blt k 708 then
                  [b!"time"]
                else
                  bif Nat.blt k 709 then
                    [b!"times"]
                  else
                    [b!"timest"]
              else
                bif Nat.blt k 711 then
                  [b!"timesta"]
                else
                  bif Nat.blt k 712 then
                    [b!"timestam"]
                  else
                    [b!"timestamp"]
            else
              bif Nat.blt k 716 then
                bif Nat.blt k 714 then
                  [b!"to"]
                else
                  bif Nat.blt k 715 then
                    [b!"u"]
                  else
                    [b!"un"]
              else
                bif Nat.blt k 718 then
                  bif Nat.blt k 717 then
                    [b!"uns"]
                  else
                    [b!"unsu"]
                else
                  bif Nat.blt k 719 then
                    [b!"unsup"]
                  else
                    [b!"unsupp"]
          else
            bif Nat.blt k 727 then
              bif Nat.blt k 723 then
                bif Nat.blt k 721 then
                  [b!"unsuppo"]
                else
                  bif Nat.blt k 722 then
                    [b!"unsuppor"]
                  else
                    [b!"unsupport"]
              else
                bif Nat.blt k 725 then
                  bif Nat.blt k 724 then
                    [b!"unsupporte"]
                  else
                    [b!"unsupported"]
                else
                  bif Nat.blt k 726 then
                    [b!"us"]
                  else
                    [b!"use"]
            else
              bif Nat.blt k 730 then
                bif Nat.blt k 728 then
                  [b!"user"]
                else
                  bif Nat.blt k 729 then
                    [b!"user-"]
                  else
                    [b!"user-a"]
              else
                bif Nat.blt k 732 then
                  bif Nat.blt k 731 then
                    [b!"user-ag"]
                  else
                    [b!"user-age"]
                else
                  bif Nat.blt k 733 then
                    [b!"user-agen"]
                  else
                    [b!"user-agent"]
        else
          bif Nat.blt k 751 then
            bif Nat.blt k 744 then
              bif Nat.blt k 741 then
                bif Nat.blt k 735 then
                  [b!"v"]
                else
                  bif Nat.blt k 740 then
                    []
                  else
                    [b!"vi"]
              else
                bif Nat.blt k 742 then
                  [b!"via"]
                else
                  bif Nat.blt k 743 then
                    [b!"w"]
                  else
                    [b!"wa"]
            else
              bif Nat.blt k 747 then
                bif Nat.blt k 745 then
                  [b!"war"]
                else
                  bif Nat.blt k 746 then
                    [b!"warn"]
                  else
                    [b!"warni"]
              else
                bif Nat.blt k 749 then
                  bif Nat.blt k 748 then
                    [b!"warnin"]
                  else
                    [b!"warning"]
                else
                  bif Nat.blt k 750 then
                    [b!"ww"]
                  else
                    [b!"www"]
          else
            bif Nat.blt k 758 then
              bif Nat.blt k 754 then
                bif Nat.blt k 752 then
                  [b!"www-"]
                else
                  bif Nat.blt k 753 then
                    [b!"www-a"]
                  else
                    [b!"www-au"]
              else
                bif Nat.blt k 756 then
                  bif Nat.blt k 755 then
                    [b!"www-aut"]
                  else
                    [b!"www-auth"]
                else
                  bif Nat.blt k 757 then
                    [b!"www-authe"]
                  else
                    [b!"www-authen"]
            else
              bif Nat.blt k 761 then
                bif Nat.blt k 759 then
                  [b!"www-authent"]
                else
                  bif Nat.blt k 760 then
                    [b!"www-authenti"]
                  else
                    [b!"www-authentic"]
              else
                bif Nat.blt k 763 then
                  bif Nat.blt k 762 then
                    [b!"www-authentica"]
                  else
                    [b!"www-authenticat"]
                else
                  bif Nat.blt k 764 then
                    [b!"www-authenticate"]
                  else
                    []

end Gosip.Sip.MsgM
